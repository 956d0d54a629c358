import Verif.Model.Templates
import Verif.Spec.Templates
import Verif.Props.Json
import Verif.Props.Gen
import Verif.Props.EndToEnd
import Verif.Proofs.HarnessGen

/-
Facts about the machines rtcg-gen works on, for the theorems about templates.
-/

namespace Rtcg

open Spec

/-- Every transition of a built machine comes from an event of the tree. -/
theorem build_carries {b b' : Builder} {root : Node} {t t' : Validate.Test} {m : Stm}
    (hv : Validate.full (some root) = some (.ok t)) (h : b.build t = some (.ok (b', m, t'))) :
    ∀ s ∈ m.states, ∀ ts ∈ s.transitionSets, ts.transitions ≠ [] ∧
      ∀ tr ∈ ts.transitions, Carries root ts.channel.name tr.value.type := by
  obtain ⟨l, hl, hf⟩ := C31_transitions b b' root t t' m hv h
  have hsame := (C28_states b b' root t t' m hv h).1
  intro s hs ts hts
  obtain ⟨i, hi⟩ := List.getElem?_of_mem hs
  obtain ⟨⟨p, n⟩, hx, hid, hg⟩ : ∃ x ∈ l, s.id = x.2.id ∧ Grouped (branches x.2) s.transitionSets := by
    clear hl hi h
    generalize m.states = st at hs hf
    induction hf with
    | nil => simp at hs
    | @cons a b _ _ h _ ih =>
      rcases List.mem_cons.1 hs with rfl | hs
      · exact ⟨a, by simp, h⟩
      · obtain ⟨x, hx, h'⟩ := ih hs; exact ⟨x, by simp [hx], h'⟩
  have hn := ((hl.1 p n).1 hx).1
  constructor
  · have hc : ts.channel ∈ s.transitionSets.map (·.channel) := List.mem_map_of_mem hts
    rw [hg.1, mem_firstUses] at hc
    obtain ⟨a, ha, he⟩ := List.mem_map.1 hc
    rw [hg.2 ts hts]
    intro h0
    rw [List.map_eq_nil_iff, List.filter_eq_nil_iff] at h0
    exact h0 a ha (by simpa using he)
  · intro tr htr
    rw [hg.2 ts hts] at htr
    obtain ⟨⟨c, tr'⟩, ha, rfl⟩ := List.mem_map.1 htr
    obtain ⟨ha, hc⟩ := List.mem_filter.1 ha
    simp only [decide_eq_true_eq] at hc
    unfold branches at ha
    obtain ⟨k, hk, hk'⟩ := List.mem_filterMap.1 ha
    by_cases hfail : k.outcome = oFail
    · rw [if_pos hfail] at hk'; cases hk'
    · rw [if_neg hfail] at hk'
      obtain ⟨e, he, heq⟩ := Option.map_eq_some_iff.1 hk'
      cases heq
      obtain ⟨j, hj⟩ := List.getElem?_of_mem hk
      have hkid : nodeAt t'.root (p ++ [j]) = some k := by
        rw [Harness.nodeAt_snoc, hn]; exact hj
      have := hsame (p ++ [j])
      rw [hkid] at this
      cases hr : nodeAt root (p ++ [j]) with
      | none => rw [hr] at this; simp at this
      | some k' =>
        rw [hr] at this
        simp only [Option.map_some, Option.some.injEq, Prod.mk.injEq] at this
        exact ⟨_, k', e, hr, by rw [← this.2.1]; exact hfail, by rw [← this.2.2.1]; exact he, by rw [← hc], rfl⟩

/-- What is known of a machine the generator is given: `tree` is the test it was made from. -/
structure MachineOK (ts : GoMap Str Validate.Test) (types : TypeMap) (root : Node) (m : Stm) : Prop where
  head : ∃ s, m.states.head? = some s ∧ s.id = c!"initial"
  sets : ∀ s ∈ m.states, ∀ x ∈ s.transitionSets, x.transitions ≠ []
  closed : ∀ s ∈ m.states, ∀ x ∈ s.transitionSets, ∀ tr ∈ x.transitions, ∃ s' ∈ m.states, s'.id = tr.next
  verdicts : ∀ s ∈ m.states, ∀ k ∈ s.verdict.keys, k ∈ GoSet.values m.tests
  typed : ∀ s ∈ m.states, ∀ x ∈ s.transitionSets, ∀ tr ∈ x.transitions,
    ∃ ty, GoMap.get? types x.channel.name = some (some ty) ∧ SuiteCarries ts x.channel.name tr.value.type ∧
      LeastUpper (SuiteCarries ts x.channel.name) ty
  ids : NoIds root → (m.states.map (·.id)).Nodup ∧ ∀ s ∈ m.states, s.id = c!"initial" ∨ ∃ k, s.id = c!"step" ++ decNat k
  tests : (GoSet.values m.tests).Nodup

theorem sameState_mem {l l' : List State} (h : List.Forall₂ SameState l l') : ∀ s' ∈ l', ∃ s ∈ l, SameState s s' := by
  induction h with
  | nil => simp
  | @cons a b _ _ h _ ih =>
    intro s' hs'
    rcases List.mem_cons.1 hs' with rfl | hs'
    · exact ⟨a, by simp, h⟩
    · obtain ⟨s, hs, h'⟩ := ih s' hs'; exact ⟨s, by simp [hs], h'⟩

theorem sameState_mem' {l l' : List State} (h : List.Forall₂ SameState l l') : ∀ s ∈ l, ∃ s' ∈ l', SameState s s' := by
  induction h with
  | nil => simp
  | @cons a b _ _ h _ ih =>
    intro s' hs'
    rcases List.mem_cons.1 hs' with rfl | hs'
    · exact ⟨b, by simp, h⟩
    · obtain ⟨s, hs, h'⟩ := ih s' hs'; exact ⟨s, by simp [hs], h'⟩

theorem sameState_ids {l l' : List State} (h : List.Forall₂ SameState l l') : l.map (·.id) = l'.map (·.id) := by
  induction h with
  | nil => rfl
  | cons h _ ih => rw [List.map_cons, List.map_cons, h.1, ih]

/-- Everything known about the machines of a suite made by rtcg-make-stms. -/
theorem madeFrom_machine {ts : GoMap Str Validate.Test} {r : StmSuite} (h : MadeFrom ts r) {name : Str} {m : Stm}
    (hm : (name, m) ∈ r.tests) : ∃ t, (name, t) ∈ ts ∧ MachineOK ts r.types t.root m := by
  obtain ⟨hwf, hv, ⟨b, b', r₀, hb, hty, hsame⟩, w1, w2, w3⟩ := h
  have hg := hsame name
  rw [GoMap.get?_of_mem w2 hm] at hg
  cases hr : GoMap.get? r₀.tests name with
  | none => rw [hr] at hg; cases hg
  | some m₀ =>
  rw [hr] at hg
  cases hg with
  | some hss =>
  obtain ⟨hst, _, htests⟩ := hss
  obtain ⟨t, b₁, t', ht, hbt⟩ := suite_machine hwf hv hb (GoMap.mem_of_get? hr)
  have hvt := hv _ ht
  simp only at hvt
  obtain ⟨_, _, htypes⟩ := C36_result b b' ts hwf hv r₀ hb
  refine ⟨t, ht, ?_⟩
  have hcar := build_carries hvt hbt
  have hclo := C30_closed _ _ _ _ _ _ hvt hbt
  have h33 := C33_tests _ _ _ _ _ _ hvt hbt
  refine ⟨?_, ?_, ?_, ?_, ?_, ?_, ?_⟩
  · have hi := (C28_states _ _ _ _ _ _ hvt hbt).2.2.2
    have hids := sameState_ids hst
    unfold Stm.initialState at hi
    cases hm0 : m₀.states with
    | nil => rw [hm0] at hi; cases hi
    | cons s₀ l₀ =>
      rw [hm0] at hi hids
      simp only [Except.ok.injEq] at hi
      cases hm1 : m.states with
      | nil => rw [hm1] at hids; simp at hids
      | cons s l =>
        rw [hm1, List.map_cons, List.map_cons, List.cons.injEq] at hids
        exact ⟨s, rfl, by rw [← hids.1, hi]⟩
  · intro s hs x hx
    obtain ⟨s₀, hs₀, hss⟩ := sameState_mem hst s hs
    rw [← hss.2.1] at hx
    exact (hcar s₀ hs₀ x hx).1
  · intro s hs x hx tr htr
    obtain ⟨s₀, hs₀, hss⟩ := sameState_mem hst s hs
    rw [← hss.2.1] at hx
    obtain ⟨s₁, hs₁, he⟩ := hclo s₀ hs₀ x hx tr htr
    obtain ⟨s₂, hs₂, he₂⟩ := sameState_mem' hst s₁ hs₁
    exact ⟨s₂, hs₂, by rw [← he₂.1, he]⟩
  · intro s hs k hk
    obtain ⟨s₀, hs₀, hss⟩ := sameState_mem hst s hs
    rw [← htests.mem_iff]
    have : GoMap.get? s.verdict k ≠ none := by
      rw [Ne, GoMap.get?_eq_none_iff]; exact fun h => h hk
    obtain ⟨o, ho⟩ := Option.ne_none_iff_exists'.1 this
    exact h33.2.2 s₀ hs₀ k o (by rw [hss.2.2 k]; exact ho)
  · intro s hs x hx tr htr
    obtain ⟨s₀, hs₀, hss⟩ := sameState_mem hst s hs
    rw [← hss.2.1] at hx
    have hc := (hcar s₀ hs₀ x hx).2 tr htr
    obtain ⟨h1, h2⟩ := htypes x.channel.name
    have hsc : SuiteCarries ts x.channel.name tr.value.type := ⟨_, ht, hc⟩
    rw [← hty x.channel.name]
    cases hgt : GoMap.get? r₀.types x.channel.name with
    | none => exact absurd ⟨_, hsc⟩ (h1.1 hgt)
    | some o =>
      obtain ⟨ty, rfl, hl⟩ := h2 o hgt
      exact ⟨ty, rfl, hsc, hl⟩
  · intro hno
    constructor
    · rw [← sameState_ids hst]; exact (C29_state_ids _ _ _ _ _ _ hvt hbt).2 hno
    · intro s hs
      obtain ⟨s₀, hs₀, hss⟩ := sameState_mem hst s hs
      rw [← hss.1]
      exact C29_id_form _ _ _ _ _ _ hvt hbt hno s₀ hs₀
  · exact htests.nodup_iff.1 h33.1

end Rtcg
