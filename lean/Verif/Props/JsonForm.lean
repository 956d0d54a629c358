import Verif.Proofs.JsonForm
import Verif.Props.Run
import Verif.Proofs.Calm

/-
C100, C101: what is read from JSON, and which inputs make the programs panic.
-/

namespace Rtcg

open Spec Spec.JsonForm Program Programs

/-! ### C101 -/

/-- C101: a node of a test is read exactly as its JSON says. -/
theorem C101_node (j : Json) (n : Node) (ho : NodeOnce j) : Json.decodeNode j = .ok n ↔ SaysNode j n := JsonForm.node_iff ho n

/-- C101: a suite of tests is read if the JSON says a suite, and then it is that suite: the same tests under the same names. -/
theorem C101_suite (j : Json) (ho : SuiteOnce j) :
    ((∃ s, Json.decodeSuite j = .ok s) ↔ ∃ s, SaysSuite j s) ∧
    ∀ s, Json.decodeSuite j = .ok s → SaysSuite j s ∧ ∀ s', SaysSuite j s' → s.Perm s' := by
  have hs : ∀ s, Json.decodeSuite j = .ok s → SaysSuite j s := fun s => JsonForm.suite_sound ho
  refine ⟨⟨fun ⟨s, h⟩ => ⟨s, hs s h⟩, fun ⟨s, h⟩ => JsonForm.suite_complete ho h⟩, fun s h => ⟨hs s h, fun s' h' => ?_⟩⟩
  have h := hs s h
  cases j with
  | obj fs =>
    have key : ∀ a b : Validate.Suite, SaysMap SaysTest (.obj fs) a → SaysMap SaysTest (.obj fs) b → ∀ x ∈ a, x ∈ b := by
      intro a b ha hb x hx
      obtain ⟨_, e, _, _, _, hl⟩ := ha
      cases e
      obtain ⟨j, ⟨pre, key, post, hfs, rfl, hp⟩, hj⟩ := hl x.1 x.2 hx
      obtain ⟨_, e, _, _, hin, hl'⟩ := hb
      cases e
      obtain ⟨y, hy⟩ := hin (x.1, j) (by rw [hfs]; simp)
      obtain ⟨j', hj', hs'⟩ := hl' x.1 y hy
      have := JsonForm.last_unique hj' ⟨pre, x.1, post, hfs, rfl, hp⟩
      subst this
      have ho' : NodeOnce j' := ho fs rfl (x.1, j') (by rw [hfs]; simp)
      have e1 := (JsonForm.test_iff ho' _).2 hj
      rw [(JsonForm.test_iff ho' _).2 hs'] at e1
      cases e1
      exact hy
    rcases h with ⟨h, _⟩ | h
    · cases h
    · rcases h' with ⟨h', _⟩ | h'
      · cases h'
      · have nd : ∀ a : Validate.Suite, SaysMap SaysTest (.obj fs) a → List.Nodup a := fun a ⟨_, _, hw, _⟩ => List.Nodup.of_map _ hw
        exact (List.perm_ext_iff_of_nodup (nd s h) (nd s' h')).2 fun x => ⟨key s s' h h' x, key s' s h' h x⟩
  | null =>
    have en : ∀ a : Validate.Suite, SaysSuite .null a → a = [] := by
      rintro a (⟨_, rfl⟩ | ⟨_, e, _⟩)
      · rfl
      · cases e
    rw [en s h, en s' h']
  | _ =>
    rcases h with ⟨h, _⟩ | ⟨_, h, _⟩ <;> cases h

/-- C101: a suite of machines is read if the JSON says one, and then it is as the JSON says. -/
theorem C101_stm_suite (j : Json) (ho : StmSuiteOnce j) :
    ((∃ s, Json.decodeStmSuite j = .ok s) ↔ ∃ s, SaysStmSuite j s) ∧ ∀ s, Json.decodeStmSuite j = .ok s → SaysStmSuite j s :=
  ⟨⟨fun ⟨s, h⟩ => ⟨s, JsonForm.stmSuite_sound ho h⟩, fun ⟨_, h⟩ => JsonForm.stmSuite_complete ho h⟩, fun _ => JsonForm.stmSuite_sound ho⟩

/-- The fields of a node in another order and case, with one that is unknown, one that is `null` and a child. -/
def exNodeJson : Json :=
  .obj [(c!"NEXT", .arr [.obj [(c!"event", .str c!"a.in.7"), (c!"outcome", .str c!"PASS")]]), (c!"colour", .bool true), (c!"Teſts", .arr [.str c!"t", .null]),
    (c!"id", .null)]

example : NodeOnce exNodeJson ∧
    Json.decodeNode exNodeJson = .ok ⟨[], [c!"t", []], .unset, none, [⟨[], [], .pass, some ⟨⟨c!"a", .in_⟩, .int 7⟩, []⟩]⟩ := by
  have hk : ∀ {name key : Str}, JsonForm.Letters name = true → Json.isField name key = false → ¬ Named name key :=
    fun hl h hn => by rw [(JsonForm.isField_iff hl).2 hn] at h; cases h
  have once : ∀ fs : List (Str × Json), (∀ name ∈ [c!"id", c!"tests", c!"outcome", c!"event", c!"next"],
      fs.Pairwise (fun f g => (Json.isField name f.1 && Json.isField name g.1) = false)) →
      ∀ name ∈ [c!"id", c!"tests", c!"outcome", c!"event", c!"next"], Once fs name := by
    intro fs h name hn
    have hl : JsonForm.Letters name = true := by
      simp only [List.mem_cons, List.not_mem_nil, or_false] at hn
      rcases hn with rfl | rfl | rfl | rfl | rfl <;> decide
    refine (h name hn).imp fun {f g} hfg ⟨h1, h2⟩ => ?_
    rw [(JsonForm.isField_iff hl).2 h1, (JsonForm.isField_iff hl).2 h2] at hfg
    cases hfg
  refine ⟨.obj (once _ (by decide +kernel)) ?_, by rfl⟩
  intro key js hm hn j hj
  simp only [List.mem_cons, Prod.mk.injEq, Json.arr.injEq, reduceCtorEq, and_false, List.not_mem_nil, or_false, false_or] at hm
  rcases hm with ⟨rfl, rfl⟩ | ⟨rfl, rfl⟩
  · simp only [List.mem_cons, List.not_mem_nil, or_false] at hj
    subst hj
    refine .obj (once _ (by decide +kernel)) ?_
    intro key js hm
    simp at hm
  · exact absurd hn (hk (by decide) (by decide +kernel))

/-- A field given twice is not covered. -/
example : ∃ j, ¬ NodeOnce j ∧ ∃ n, Json.decodeNode j = .ok n := by
  refine ⟨.obj [(c!"id", .str c!"a"), (c!"ID", .str c!"b")], ?_, ⟨c!"b", [], .unset, none, []⟩, by rfl⟩
  intro h
  cases h with
  | other h => exact h _ rfl
  | obj h _ =>
    have := List.pairwise_cons.1 (h c!"id" (by simp))
    exact this.1 _ (List.mem_singleton.2 rfl) ⟨(JsonForm.isField_iff (by decide)).1 (by decide +kernel), (JsonForm.isField_iff (by decide)).1 (by decide +kernel)⟩

end Rtcg
