import Verif.Proofs.JsonMake

/-
The machines rtcg-make-stms writes.
-/

namespace Rtcg

open Rtcg.Spec

theorem suite_machine {b b' : Builder} {ts : GoMap Str Validate.Test} (hwf : GoMap.WF ts) (hv : Validated ts) {r : StmSuite}
    (h : b.buildSuite ts = .ok (b', r)) {name : Str} {m : Stm} (hm : (name, m) ∈ r.tests) :
    ∃ t b₁ t', (name, t) ∈ ts ∧ Builder.zero.build t = some (.ok (b₁, m, t')) := by
  obtain ⟨h1, h2, _⟩ := C36_result b b' ts hwf hv r h
  have hk : name ∈ ts.map (·.1) := by rw [← h1]; exact List.mem_map.2 ⟨_, hm, rfl⟩
  obtain ⟨⟨n, t⟩, ht, e⟩ := List.mem_map.1 hk
  simp only at e
  subst e
  have hwf' : GoMap.WF r.tests := by unfold GoMap.WF; rw [h1]; exact hwf
  obtain ⟨b₁, t', hb⟩ := (h2 n t m ht).1 (GoMap.get?_of_mem hwf' hm)
  exact ⟨t, b₁, t', ht, hb⟩

theorem suite_machine_conv {b b' : Builder} {ts : GoMap Str Validate.Test} (hwf : GoMap.WF ts) (hv : Validated ts) {r : StmSuite}
    (h : b.buildSuite ts = .ok (b', r)) {name : Str} {t : Validate.Test} (hm : (name, t) ∈ ts) :
    ∃ m b₁ t', (name, m) ∈ r.tests ∧ Builder.zero.build t = some (.ok (b₁, m, t')) := by
  obtain ⟨h1, h2, _⟩ := C36_result b b' ts hwf hv r h
  have hk : name ∈ r.tests.map (·.1) := by rw [h1]; exact List.mem_map.2 ⟨_, hm, rfl⟩
  obtain ⟨⟨n, m⟩, ht, e⟩ := List.mem_map.1 hk
  simp only at e
  subst e
  have hwf' : GoMap.WF r.tests := by unfold GoMap.WF; rw [h1]; exact hwf
  obtain ⟨b₁, t', hb⟩ := (h2 n t m hm).1 (GoMap.get?_of_mem hwf' ht)
  exact ⟨m, b₁, t', ht, hb⟩

theorem carries_value {root : Node} {name : Str} {ty : RsType} (h : Carries root name ty) : ∃ v : Value, ty = v.type := by
  obtain ⟨_, _, e, _, _, _, _, h⟩ := h
  exact ⟨e.value, h⟩

theorem suite_types {b b' : Builder} {ts : GoMap Str Validate.Test} (hwf : GoMap.WF ts) (hv : Validated ts) {r : StmSuite}
    (h : b.buildSuite ts = .ok (b', r)) : GoMap.WF r.types ∧ SavableTypes r.types := by
  rcases suite_cases b ts hwf hv with ⟨b'', r', L, h', _, _, _, hinv, ht⟩ | ⟨h', _⟩
  · rw [h] at h'
    simp only [Except.ok.injEq, Prod.mk.injEq] at h'
    obtain ⟨_, rfl⟩ := h'
    refine ⟨hinv.1, savable_types hinv.1 (S := SuiteCarries ts) ?_ (fun name => (ht name).1) ?_⟩
    · rintro name y ⟨nt, _, hc⟩; exact carries_value hc
    · intro name x hx
      obtain ⟨ty, rfl, hl⟩ := (ht name).2 x hx
      obtain ⟨ty', e, hg, _⟩ := (hinv.2 name).2 _ hx
      cases e
      exact ⟨_, rfl, hg, hl⟩
  · rw [h] at h'; cases h'

theorem machine_types {b b' : Builder} {root : Node} {t t' : Validate.Test} {m : Stm}
    (hv : Validate.full (some root) = some (.ok t)) (h : b.build t = some (.ok (b', m, t'))) :
    GoMap.WF m.types ∧ SavableTypes m.types := by
  obtain ⟨_, _, _, hinv, _⟩ := build_ok hv h
  exact ⟨hinv.1, savable_tinv hinv (usesOf_values _)⟩

theorem machine_valued {b b' : Builder} {root : Node} {t t' : Validate.Test} {m : Stm}
    (hv : Validate.full (some root) = some (.ok t)) (h : b.build t = some (.ok (b', m, t'))) :
    Json.ValuedStm m ↔ ValuedTree root := by
  obtain ⟨hwf, _, hm, _, _⟩ := build_ok hv h
  rw [hm]
  exact valuedStm_iff hwf _

theorem suite_writes {b b' : Builder} {ts : GoMap Str Validate.Test} (hwf : GoMap.WF ts) (hv : Validated ts) {r : StmSuite}
    (h : b.buildSuite ts = .ok (b', r)) :
    ((∀ nt ∈ ts, ValuedTree nt.2.root) ∧ ∃ j, Json.encodeStmSuite r = .ok j) ∨
      (¬ (∀ nt ∈ ts, ValuedTree nt.2.root) ∧ Json.encodeStmSuite r = .error (.err .marshalAbsentValue)) := by
  obtain ⟨t1, t2⟩ := suite_types hwf hv h
  have hw := Json.writes_suite t1 t2 (fun x hx => by
    obtain ⟨t, b₁, t', ht, hb⟩ := suite_machine hwf hv h hx
    exact machine_types (hv _ ht) hb)
  have he : (∀ x ∈ r.tests, Json.ValuedStm x.2) ↔ ∀ nt ∈ ts, ValuedTree nt.2.root := by
    constructor
    · rintro hh ⟨name, t⟩ hnt
      obtain ⟨m, b₁, t', hm, hb⟩ := suite_machine_conv hwf hv h hnt
      exact (machine_valued (hv _ hnt) hb).1 (hh _ hm)
    · rintro hh ⟨name, m⟩ hx
      obtain ⟨t, b₁, t', ht, hb⟩ := suite_machine hwf hv h hx
      exact (machine_valued (hv _ ht) hb).2 (hh _ ht)
  rcases hw with ⟨hp, j⟩ | ⟨hp, e⟩
  · exact Or.inl ⟨he.1 hp, j⟩
  · exact Or.inr ⟨fun hh => hp (he.2 hh), e⟩

/-! ### machines that read back -/

theorem outcome_wellFormed {root : Node} (h : WellFormed root) {p : Path} {n : Node} (hn : nodeAt root p = some n) :
    n.outcome ∈ [oUnset, oInc, oFail, oPass] := by
  by_cases hp : p = []
  · subst hp
    simp only [nodeAt, Option.some.injEq] at hn
    subst hn
    rw [h.1.2.1]; simp
  · rcases (h.2 p n hp hn).2 with ⟨h1, _⟩ | ⟨h1, _⟩ | ⟨h1, _⟩ <;> rw [h1] <;> simp

/-- Every event of the tree survives the text format and has a value. -/
def GoodTree (root : Node) : Prop :=
  ∀ p n e, nodeAt root p = some n → n.event = some e → GoodChannel e.channel ∧ GoodValue e.value

theorem goodTree_same {a b : Node} (h : SameButIds a b) (hb : GoodTree b) : GoodTree a := by
  intro p n e hn he
  have hp := h p
  rw [hn] at hp
  cases hx : nodeAt b p with
  | none => rw [hx] at hp; simp at hp
  | some n' =>
    rw [hx] at hp
    simp only [Option.map_some, Option.some.injEq, Prod.mk.injEq] at hp
    exact hb p n' e hx (by rw [← hp.2.2.1, he])

theorem stm_maps {b b' : Builder} {root : Node} {t t' : Validate.Test} {m : Stm}
    (hv : Validate.full (some root) = some (.ok t)) (h : b.build t = some (.ok (b', m, t'))) : StmMaps m := by
  obtain ⟨hwf, _, hm, hinv, _⟩ := build_ok hv h
  refine ⟨?_, hinv.1, ?_⟩
  · intro s hs
    rw [hm] at hs
    obtain ⟨x, _, rfl⟩ := List.mem_map.1 hs
    exact pureState_verdict_wf x.2
  · rw [hm]
    exact (goSet_add_facts [] GoMap.wf_nil (by simp) _).1

theorem savable_machine {b b' : Builder} {root : Node} {t t' : Validate.Test} {m : Stm}
    (hv : Validate.full (some root) = some (.ok t)) (h : b.build t = some (.ok (b', m, t'))) (hg : GoodTree root) : SavableStm m := by
  obtain ⟨hwf, _, hm, hinv, _⟩ := build_ok hv h
  refine ⟨?_, (machine_types hv h).2⟩
  have hwf' := (sameButIds_labelled root).wellFormed hwf
  have hg' := goodTree_same (sameButIds_labelled root) hg
  intro s hs
  rw [hm] at hs
  generalize labelled root = L at hwf' hg' hs
  obtain ⟨x, hx, rfl⟩ := List.mem_map.1 hs
  have hkid : ∀ k ∈ x.2.next, ∃ q, nodeAt L q = some k := by
    intro k hk
    have hm : k ∈ (x.2.children x.1).map (·.2) := by rw [children_snd]; exact hk
    obtain ⟨y, hy, rfl⟩ := List.mem_map.1 hm
    exact ⟨y.1, nodeAt_of_kid (List.mem_flatMap.2 ⟨x, hx, hy⟩)⟩
  constructor
  · intro ts hts
    rw [pureState_sets] at hts
    have hgr := grouped_group (branches x.2)
    have hadd : ∀ t' ∈ ts.transitions, (ts.channel, t') ∈ branches x.2 := by
      intro t' ht'
      rw [hgr.2 ts hts, List.mem_map] at ht'
      obtain ⟨⟨c, t''⟩, ha, rfl⟩ := ht'
      obtain ⟨ha, hc⟩ := List.mem_filter.1 ha
      simp only [decide_eq_true_eq] at hc
      rw [← hc]; exact ha
    have hcm : ts.channel ∈ (branches x.2).map (·.1) := by
      rw [← mem_firstUses, ← hgr.1]
      exact List.mem_map.2 ⟨ts, hts, rfl⟩
    constructor
    · obtain ⟨⟨c, t''⟩, ha, e⟩ := List.mem_map.1 hcm
      simp only at e
      obtain ⟨k, hk, _, ev, he, hc, _⟩ := mem_branches.1 ha
      obtain ⟨q, hq⟩ := hkid k hk
      rw [← e, hc]
      exact (hg' q k ev hq he).1
    · intro t' ht'
      obtain ⟨k, hk, _, ev, he, _, rfl⟩ := mem_branches.1 (hadd t' ht')
      obtain ⟨q, hq⟩ := hkid k hk
      exact (hg' q k ev hq he).2
  · intro test o ho
    have hget := GoMap.get?_of_mem (pureState_verdict_wf x.2) ho
    rw [pureState_verdict] at hget
    unfold lastOutcome at hget
    cases hl : (x.2.next.filter (fun c => test ∈ c.tests)).getLast? with
    | none => rw [hl] at hget; cases hget
    | some c =>
      rw [hl] at hget
      simp only [Option.map_some, Option.some.injEq] at hget
      have hc := List.mem_of_getLast? hl
      obtain ⟨q, hq⟩ := hkid c (List.mem_filter.1 hc).1
      rw [← hget]
      exact outcome_wellFormed hwf' hq

theorem suite_savable {b b' : Builder} {ts : GoMap Str Validate.Test} (hwf : GoMap.WF ts) (hv : Validated ts) {r : StmSuite}
    (h : b.buildSuite ts = .ok (b', r)) (hg : ∀ nt ∈ ts, GoodTree nt.2.root) :
    ∃ j r', Json.encodeStmSuite r = .ok j ∧ Json.decodeStmSuite j = .ok r' ∧ SameStmSuite r r' := by
  have hwf' : GoMap.WF r.tests := by
    unfold GoMap.WF; rw [(C36_result b b' ts hwf hv r h).1]; exact hwf
  refine (Json.stmSuite_survives (suite_types hwf hv h).1 hwf' ?_).2 ⟨(suite_types hwf hv h).2, ?_⟩
  · intro x hx
    obtain ⟨t, b₁, t', ht, hb⟩ := suite_machine hwf hv h hx
    exact stm_maps (hv _ ht) hb
  · intro x hx
    obtain ⟨t, b₁, t', ht, hb⟩ := suite_machine hwf hv h hx
    exact savable_machine (hv _ ht) hb (hg _ ht)

end Rtcg
