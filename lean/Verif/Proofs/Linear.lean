import Verif.Props.StmSuite
import Verif.Props.Trace

/-
The machine built from the tree of a forbidden trace.
-/

namespace Rtcg

open Rtcg.Spec

/-- The labels along the branch. -/
def spine (pre : Trace) (forbid : Event) : List (Outcome × Option Event) :=
  pre.map (fun e => (oInc, some e)) ++ [(oPass, some forbid), (oFail, none)]

theorem visit_one {p : Path} {n c : Node} (ho : n.outcome ≠ .fail) (hn : n.next = [c]) :
    visit p n = (p, n) :: visit (p ++ [0]) c := by
  rw [visit_eq, if_neg ho]
  simp [Node.children, hn]

theorem children_one {p : Path} {n c : Node} (hn : n.next = [c]) : n.children p = [(p ++ [0], c)] := by
  simp [Node.children, hn]

theorem visit_fail {p : Path} {n : Node} (ho : n.outcome = .fail) : visit p n = [] := by rw [visit_eq, if_pos ho]

theorem replicate_assoc (p : Path) (j : Nat) : p ++ [0] ++ List.replicate (j + 1) 0 = p ++ List.replicate (j + 1 + 1) 0 := by
  rw [List.append_assoc]; rfl

theorem kids_spine (name : Str) (pre : Trace) (forbid : Event) (n : Node) (p : Path) (ho : n.outcome ≠ .fail)
    (hn : n.next = branch name (spine pre forbid)) :
    (kids (visit p n)).map (·.1) = (List.range (pre.length + 2)).map (fun j => p ++ List.replicate (j + 1) 0) := by
  induction pre generalizing n p with
  | nil =>
    simp only [spine, List.map_nil, List.nil_append, branch] at hn
    rw [visit_one ho hn, visit_one (show oPass ≠ Outcome.fail by decide) rfl, visit_fail rfl]
    simp [kids, children_one hn, children_one (n := ⟨[], [name], oPass, some forbid, _⟩) rfl, List.range_succ]
  | cons e pre ih =>
    have hb : branch name (spine (e :: pre) forbid) = [⟨[], [name], oInc, some e, branch name (spine pre forbid)⟩] := rfl
    rw [hb] at hn
    rw [visit_one ho hn]
    have := ih ⟨[], [name], oInc, some e, branch name (spine pre forbid)⟩ (p ++ [0]) (show oInc ≠ Outcome.fail by decide) rfl
    unfold kids at this ⊢
    rw [show (e :: pre).length + 2 = (pre.length + 2) + 1 from rfl, List.range_succ_eq_map]
    rw [List.flatMap_cons, List.map_append, this, children_one hn]
    simp only [List.map_cons, List.map_nil, List.map_map, List.singleton_append]
    congr 1
    apply List.map_congr_left
    intro j _
    exact replicate_assoc p j

theorem finalIds_spine (f : Forbidden) (name : Str) (k : Nat) (h : k < f.pre.length + 3) :
    finalIds (f.expand name) (List.replicate k 0) = some (stateName k) := by
  cases k with
  | zero => exact finalIds_root _
  | succ k =>
    have hx := expand_eq f name
    have hk := kids_spine name f.pre f.forbid (f.expand name) [] (by rw [hx]; show oUnset ≠ Outcome.fail; decide) (by rw [hx]; rfl)
    have hblank : ∀ x ∈ kids (visit [] (f.expand name)), (ids0 x.1).getD x.2.id = [] := by
      intro x hx
      have : ids0 x.1 = none := by unfold ids0; rw [if_neg (kids_ne_nil hx)]
      simp only [this]
      exact C29_expand_noIds f name _ _ (nodeAt_of_kid hx)
    have hl := (labels_blank (0, ids0) _ (kids_nodup _ (visit_pairwise [] (f.expand name))) hblank).2
    have hlen : (kids (visit [] (f.expand name))).length = f.pre.length + 2 := by
      have := congrArg List.length hk
      simpa using this
    have h1 : k < (kids (visit [] (f.expand name))).length := by omega
    have h2 := hl k h1
    have h3 : (kids (visit [] (f.expand name)))[k].1 = List.replicate (k + 1) 0 := by
      have : ((kids (visit [] (f.expand name))).map (·.1))[k]'(by simpa using h1) = List.replicate (k + 1) 0 := by
        simp only [hk]
        simp
      simpa using this
    rw [h3] at h2
    unfold finalIds
    rw [h2]
    simp [stateName]

theorem pureState_one {n c : Node} {name : Str} (hn : n.next = [c]) (hc : c.tests = [name]) :
    pureState n =
      { id := n.id
        transitionSets := if c.outcome = .fail then [] else
          match c.event with
          | none => []
          | some e => [⟨e.channel, [⟨e.value, c.id⟩]⟩]
        verdict := [(name, c.outcome)] } := by
  have h1 := pureState_id n
  have h2 := pureState_sets n
  have h3 : (pureState n).verdict = [(name, c.outcome)] := by
    unfold pureState
    rw [hn]
    simp only [List.foldl_cons, List.foldl_nil]
    rw [outgoing_verdict]
    simp [State.new, Verdict.add, hc, GoMap.set]
  have h4 : group (branches n) = if c.outcome = .fail then [] else
          match c.event with
          | none => []
          | some e => [⟨e.channel, [⟨e.value, c.id⟩]⟩] := by
    unfold branches
    rw [hn]
    simp only [List.filterMap_cons, List.filterMap_nil]
    by_cases ho : c.outcome = oFail
    · rw [if_pos ho, if_pos (show c.outcome = Outcome.fail from ho)]; rfl
    · rw [if_neg ho, if_neg (show ¬ c.outcome = Outcome.fail from ho)]
      cases c.event with
      | none => rfl
      | some e => simp [group, firstUses]
  rw [h4] at h2
  generalize pureState n = s at h1 h2 h3
  cases s
  simp only at h1 h2 h3
  rw [h1, h2, h3]

theorem writeIds_one {ids : Path → Option Str} {p : Path} {n c : Node} (hn : n.next = [c]) :
    (Builder.writeIds ids p n).next = [Builder.writeIds ids (p ++ [0]) c] := by
  rw [writeIds_eq]
  simp [hn]

theorem writeIds_id (ids : Path → Option Str) (p : Path) (n : Node) :
    (Builder.writeIds ids p n).id = (ids p).getD n.id ∧ (Builder.writeIds ids p n).tests = n.tests ∧
      (Builder.writeIds ids p n).outcome = n.outcome ∧ (Builder.writeIds ids p n).event = n.event := by
  rw [writeIds_eq]; exact ⟨rfl, rfl, rfl, rfl⟩

theorem states_spine (name : Str) (pre : Trace) (forbid : Event) (ids : Path → Option Str) (n : Node) (p : Path) (k : Nat)
    (ho : n.outcome ≠ .fail) (hn : n.next = branch name (spine pre forbid))
    (hids : ∀ j < pre.length + 3, ids (p ++ List.replicate j 0) = some (stateName (k + j))) :
    (visit p n).map (fun pn => pureState (Builder.writeIds ids pn.1 pn.2)) =
      (List.range (pre.length + 2)).map (fun j =>
        { id := stateName (k + j)
          transitionSets :=
            match (pre ++ [forbid])[j]? with
            | none => []
            | some e => [{ channel := e.channel, transitions := [{ value := e.value, next := stateName (k + j + 1) }] }]
          verdict := [(name, verdictAt pre.length j)] }) := by
  induction pre generalizing n p k with
  | nil =>
    simp only [spine, List.map_nil, List.nil_append, branch] at hn
    rw [visit_one ho hn, visit_one (show oPass ≠ Outcome.fail by decide) rfl, visit_fail rfl]
    have i0 := hids 0 (by simp)
    have i1 := hids 1 (by simp)
    simp only [List.replicate_zero, List.append_nil, List.replicate_one, Nat.add_zero] at i0 i1
    simp only [List.map_cons, List.map_nil, List.length_nil, Nat.zero_add, List.range_succ, List.range_zero, List.nil_append,
      List.singleton_append]
    rw [pureState_one (writeIds_one hn) ((writeIds_id _ _ _).2.1), pureState_one (writeIds_one rfl) ((writeIds_id _ _ _).2.1)]
    simp only [(writeIds_id _ _ _).1, (writeIds_id _ _ _).2.2.1, (writeIds_id _ _ _).2.2.2, i0, i1]
    rw [if_neg (by decide), if_pos (by rfl)]
    simp [verdictAt]
  | cons e pre ih =>
    have hb : branch name (spine (e :: pre) forbid) = [⟨[], [name], oInc, some e, branch name (spine pre forbid)⟩] := rfl
    rw [hb] at hn
    rw [visit_one ho hn, List.map_cons]
    rw [show (e :: pre).length + 2 = (pre.length + 2) + 1 from rfl, List.range_succ_eq_map, List.map_cons, List.map_map]
    congr 1
    · rw [pureState_one (writeIds_one hn) ((writeIds_id _ _ _).2.1)]
      have i0 := hids 0 (by simp)
      have i1 := hids 1 (by simp)
      simp only [List.replicate_zero, List.append_nil, List.replicate_one, Nat.add_zero] at i0 i1
      simp only [(writeIds_id _ _ _).1, (writeIds_id _ _ _).2.2.1, (writeIds_id _ _ _).2.2.2, i0, i1]
      rw [if_neg (by decide)]
      simp [verdictAt]
    · have := ih ⟨[], [name], oInc, some e, branch name (spine pre forbid)⟩ (p ++ [0]) (k + 1) (show oInc ≠ Outcome.fail by decide) rfl (by
        intro j hj
        have := hids (j + 1) (by simpa using hj)
        rw [show p ++ [0] ++ List.replicate j 0 = p ++ List.replicate (j + 1) 0 by rw [List.append_assoc]; rfl, this]
        congr 2
        omega)
      rw [this]
      apply List.map_congr_left
      intro j _
      simp only [Function.comp_apply, List.cons_append, List.getElem?_cons_succ, List.length_cons]
      rw [show k + 1 + j = k + (j + 1) by omega]
      have hv : verdictAt pre.length j = verdictAt (pre.length + 1) (j + 1) := by
        unfold verdictAt
        simp
      rw [hv]

theorem linear_states {b b' : Builder} {f : Forbidden} {name : Str} {t t' : Validate.Test} {m : Stm}
    (hv : Validate.full (some (f.expand name)) = some (.ok t)) (h : b.build t = some (.ok (b', m, t'))) :
    m.states = linearStates f name := by
  obtain ⟨_, _, hm, _, _⟩ := build_ok hv h
  rw [hm]
  simp only [machineOf]
  unfold labelled
  rw [visit_writeIds, List.map_map]
  have hx := expand_eq f name
  have := states_spine name f.pre f.forbid (finalIds (f.expand name)) (f.expand name) [] 0 (by rw [hx]; show oUnset ≠ Outcome.fail; decide)
    (by rw [hx]; rfl) (by intro j hj; simpa using finalIds_spine f name j hj)
  show (visit [] (f.expand name)).map (fun pn => pureState (Builder.writeIds (finalIds (f.expand name)) pn.1 pn.2)) = _
  rw [this]
  unfold linearStates
  apply List.map_congr_left
  intro j _
  simp only [linearState, eventsOf, Nat.zero_add]
  cases (f.pre ++ [f.forbid])[j]? <;> rfl

end Rtcg
