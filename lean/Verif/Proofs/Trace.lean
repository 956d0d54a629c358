import Verif.Proofs.Tree
import Mathlib.Data.List.Perm.Subperm

namespace Rtcg
open Rtcg.Spec

/-! ### naming -/

theorem synthesiseName_eq (name : Str) (i : Nat) :
    Forbidden.synthesiseName (if name = [] then c!"test" else name) i = candidate name i := by
  unfold Forbidden.synthesiseName candidate
  have ht : "test".toList = c!"test" := by decide
  rw [ht]
  by_cases h1 : name = []
  · simp [h1]
  · by_cases h2 : name = c!"test"
    · simp [h2]
    · have h3 : ¬ (name = [] ∨ name = c!"test") := by rintro (h | h); exacts [h1 h, h2 h]
      simp only [if_neg h1, if_neg h2, if_neg h3]
      cases i with
      | zero => rw [if_neg (by omega)]
      | succ i => rw [if_pos (by omega)]; simp

theorem candidate_inj (name : Str) {i j : Nat} (h : candidate name i = candidate name j) : i = j := by
  unfold candidate at h
  split at h
  · exact decNat_inj (List.append_cancel_left h)
  · cases i with
    | zero =>
      cases j with
      | zero => rfl
      | succ j =>
        simp only at h
        have := congrArg List.length h
        have hne : (decNat j).length ≠ 0 := by simpa using decNat_ne_nil j
        simp at this; simp [this] at hne
    | succ i =>
      cases j with
      | zero =>
        simp only at h
        have := congrArg List.length h
        have hne : (decNat i).length ≠ 0 := by simpa using decNat_ne_nil i
        simp at this; simp [this] at hne
      | succ j =>
        simp only at h
        rw [decNat_inj (List.append_cancel_left h)]

theorem candidate_ne_nil (name : Str) (i : Nat) : candidate name i ≠ [] := by
  unfold candidate
  split
  · simp
  · rename_i h
    cases i with
    | zero => intro e; exact h (Or.inl e)
    | succ i => simp only; intro e; exact decNat_ne_nil i (List.append_eq_nil_iff.1 e).2

theorem exists_free (name : Str) (taken : List Str) : ∃ i, i ≤ taken.length ∧ candidate name i ∉ taken := by
  by_contra hc
  push Not at hc
  have hsub : (List.range (taken.length + 1)).map (candidate name) ⊆ taken := by
    intro x hx
    obtain ⟨i, hi, rfl⟩ := List.mem_map.1 hx
    exact hc i (by have := List.mem_range.1 hi; omega)
  have hnd : ((List.range (taken.length + 1)).map (candidate name)).Nodup :=
    List.Nodup.map (fun i j h => candidate_inj name h) List.nodup_range
  have := (hnd.subperm hsub).length_le
  simp at this
  omega

theorem insertNameLoop_some (result : GoMap Str Forbidden) (name : Str) (t : Forbidden) (fuel i : Nat)
    (hf : ∃ j, i ≤ j ∧ j < i + fuel ∧ candidate name j ∉ result.keys)
    (hlow : ∀ j < i, candidate name j ∈ result.keys) :
    ∃ n, FirstFree name result.keys n ∧
      Forbidden.insertNameLoop result (if name = [] then c!"test" else name) t fuel i = some (result ++ [(n, t)]) := by
  induction fuel generalizing i with
  | zero => obtain ⟨j, h1, h2, _⟩ := hf; omega
  | succ fuel ih =>
    unfold Forbidden.insertNameLoop
    simp only [synthesiseName_eq]
    cases hg : result.get? (candidate name i) with
    | none =>
      have hnot := GoMap.get?_eq_none_iff.1 hg
      refine ⟨candidate name i, ⟨i, rfl, hnot, hlow⟩, ?_⟩
      simp only
      rw [set_append_new _ _ _ hnot]
    | some x =>
      simp only
      have hmem : candidate name i ∈ result.keys := by
        by_contra hc
        rw [GoMap.get?_eq_none_iff.2 hc] at hg; cases hg
      refine ih (i + 1) ?_ ?_
      · obtain ⟨j, h1, h2, h3⟩ := hf
        have : j ≠ i := by rintro rfl; exact h3 hmem
        exact ⟨j, by omega, by omega, h3⟩
      · intro j hj
        rcases Nat.lt_succ_iff_lt_or_eq.1 hj with h | rfl
        · exact hlow j h
        · exact hmem

theorem insertName_some (result : GoMap Str Forbidden) (name : Str) (t : Forbidden) :
    ∃ n, FirstFree name result.keys n ∧
      Forbidden.insertName result (if name = [] then c!"test" else name) t = some (result ++ [(n, t)]) := by
  refine insertNameLoop_some result name t _ 0 ?_ (by intro j h; omega)
  obtain ⟨i, h1, h2⟩ := exists_free name result.keys
  refine ⟨i, by omega, ?_, h2⟩
  simp [GoMap.keys] at h1
  omega

theorem nameAll_fold (traces : List Forbidden) (acc : GoMap Str Forbidden) (hacc : GoMap.WF acc) (hne : [] ∉ acc.keys) :
    ∃ names : List Str, names.length = traces.length ∧
      traces.foldlM (fun result trace =>
        Forbidden.insertName result (if trace.name = [] then c!"test" else trace.name) trace) acc =
        some (acc ++ names.zip traces) ∧
      (acc.keys ++ names).Nodup ∧ [] ∉ names ∧
      ∀ i (h : i < names.length) (h' : i < traces.length),
        FirstFree traces[i].name (acc.keys ++ names.take i) names[i] := by
  induction traces generalizing acc with
  | nil => exact ⟨[], rfl, by simp, by simpa [GoMap.WF, GoMap.keys] using hacc, by simp, by simp⟩
  | cons t ts ih =>
    obtain ⟨n, hfree, hins⟩ := insertName_some acc t.name t
    have hn : n ∉ acc.keys := by obtain ⟨i, rfl, h, _⟩ := hfree; exact h
    have hn0 : n ≠ [] := by obtain ⟨i, rfl, _, _⟩ := hfree; exact candidate_ne_nil _ _
    have hk : GoMap.keys (acc ++ [(n, t)]) = acc.keys ++ [n] := by simp [GoMap.keys]
    obtain ⟨names, h1, h2, h3, h4, h5⟩ := ih (acc ++ [(n, t)]) (by
        have : GoMap.WF (acc ++ [(n, t)]) ↔ (acc.keys ++ [n]).Nodup := by simp [GoMap.WF, GoMap.keys]
        rw [this, List.nodup_append]
        refine ⟨hacc, by simp, ?_⟩
        intro a ha b hb; simp at hb; subst hb; rintro rfl; exact hn ha)
      (by rw [hk]; simp [hne]; exact hn0)
    refine ⟨n :: names, by simp [h1], ?_, ?_, ?_, ?_⟩
    · rw [List.foldlM_cons, hins]
      simp only [bind, Option.bind]
      rw [h2]; simp
    · rw [hk] at h3; simpa using h3
    · simp only [List.mem_cons, not_or]; exact ⟨fun h => hn0 h.symm, h4⟩
    · intro i h h'
      cases i with
      | zero => simpa using hfree
      | succ i =>
        simp only [List.getElem_cons_succ, List.take_succ_cons]
        have := h5 i (by simpa using h) (by simpa using h')
        rw [hk] at this
        simpa using this

theorem nameAll_spec (traces : List Forbidden) :
    ∃ names : List Str, names.length = traces.length ∧ Forbidden.nameAll traces = some (names.zip traces) ∧
      names.Nodup ∧ [] ∉ names ∧
      ∀ i (h : i < names.length) (h' : i < traces.length), FirstFree traces[i].name (names.take i) names[i] := by
  have := nameAll_fold traces [] (by simp [GoMap.WF]) (by simp [GoMap.keys])
  simpa [Forbidden.nameAll, GoMap.keys] using this

theorem firstFree_unique {name : Str} {taken : List Str} {n m : Str} (h1 : FirstFree name taken n)
    (h2 : FirstFree name taken m) : n = m := by
  obtain ⟨i, rfl, hi, hi'⟩ := h1
  obtain ⟨j, rfl, hj, hj'⟩ := h2
  rcases Nat.lt_trichotomy i j with h | h | h
  · exact absurd (hj' i h) hi
  · rw [h]
  · exact absurd (hi' j h) hj

/-! ### expanding and collapsing -/

theorem expand_eq (t : Forbidden) (name : Str) :
    t.expand name = { id := [], tests := [name], outcome := oUnset, event := none, next := branch name (spineOf t) } := by
  have hfold : ∀ (pre : Trace) (n : Node), pre.reverse.foldl (fun node e => (Node.inc e [node]).mark [name]) n =
      pre.foldr (fun e node => (Node.inc e [node]).mark [name]) n := by
    intro pre n; rw [List.foldl_reverse]
  have hbranch : ∀ (pre : Trace), [pre.foldr (fun e node => (Node.inc e [node]).mark [name])
      (Node.testPoint t.forbid [name])] =
      branch name (pre.map (fun e => (oInc, some e)) ++ [(oPass, some t.forbid), (oFail, none)]) := by
    intro pre
    induction pre with
    | nil => rfl
    | cons e pre ih =>
      simp only [List.foldr_cons, List.map_cons, List.cons_append, branch]
      rw [← ih]; rfl
  unfold Forbidden.expand spineOf
  simp only
  rw [hfold, ← hbranch]
  rfl

theorem nodeAt_branch {name : Str} {l : List (Outcome × Option Event)} {p : Path} {m n : Node}
    (hm : m.next = branch name l) (h : nodeAt m p = some n) :
    p = [] ∨ ∃ k o e, l[k]? = some (o, e) ∧ n = { id := [], tests := [name], outcome := o, event := e, next := branch name (l.drop (k + 1)) } := by
  induction p generalizing l m with
  | nil => exact Or.inl rfl
  | cons i p ih =>
    right
    simp only [nodeAt] at h
    rw [hm] at h
    cases l with
    | nil => simp [branch] at h
    | cons oe l =>
      obtain ⟨o, e⟩ := oe
      simp only [branch] at h
      cases i with
      | succ i => simp at h
      | zero =>
        simp only [List.getElem?_cons_zero] at h
        rcases ih (l := l) (m := { id := [], tests := [name], outcome := o, event := e, next := branch name l }) rfl h with rfl | ⟨k, o', e', h1, h2⟩
        · simp [nodeAt] at h
          exact ⟨0, o, e, by simp, by simp [← h]⟩
        · exact ⟨k + 1, o', e', by simpa using h1, by simpa using h2⟩

theorem expand_wellFormed (t : Forbidden) (name : Str) : WellFormed (t.expand name) := by
  rw [expand_eq]
  refine ⟨⟨rfl, rfl, by simp⟩, ?_⟩
  intro p n hp hn
  rcases nodeAt_branch rfl hn with h | ⟨k, o, e, hk, rfl⟩
  · exact absurd h hp
  · refine ⟨by simp, ?_⟩
    simp only
    unfold spineOf at hk ⊢
    rcases Nat.lt_or_ge k t.pre.length with h | h
    · rw [List.getElem?_append_left (by simpa using h)] at hk
      simp [h] at hk
      right; right
      obtain ⟨rfl, rfl⟩ := hk
      refine ⟨rfl, ⟨_, rfl⟩, ?_⟩
      rw [List.drop_append_of_le_length (by simp; omega)]
      cases (List.drop (k + 1) (List.map (fun e => (oInc, some e)) t.pre)) <;> simp [branch]
    · rw [List.getElem?_append_right (by simpa using h)] at hk
      obtain ⟨d, rfl⟩ : ∃ d, k = t.pre.length + d := ⟨k - t.pre.length, by omega⟩
      simp at hk
      match d, hk with
      | 0, hk =>
        simp at hk
        obtain ⟨rfl, rfl⟩ := hk
        right; left
        refine ⟨rfl, ⟨_, rfl⟩, ?_⟩
        rw [show t.pre.length + 0 + 1 = (List.map (fun e => (oInc, some e)) t.pre).length + 1 by simp]
        rw [← List.drop_drop]
        simp [branch]
      | 1, hk =>
        simp at hk
        obtain ⟨rfl, rfl⟩ := hk
        left
        refine ⟨rfl, rfl, ?_⟩
        rw [show t.pre.length + 1 + 1 = (List.map (fun e => (oInc, some e)) t.pre).length + 2 by simp]
        rw [← List.drop_drop]
        simp [branch]
      | d + 2, hk => simp at hk

/-- What Collapse gathers along a branch. -/
def gather (f : Forbidden) : List (Outcome × Option Event) → Forbidden
  | [] => f
  | (o, e) :: l =>
    if o = oFail then f
    else if o = oPass then gather { f with forbid := e.getD Event.zero } l
    else gather { f with pre := f.pre ++ [e.getD Event.zero] } l

/-- The collapse loop on a subtree of any shape: it succeeds exactly when the subtree is a non-forking branch of proper
nodes (ending in a failing leaf). -/
theorem collapseLoop_ok_iff (fuel : Nat) (f r : Forbidden) (n : Node) (hf : n.size ≤ fuel) :
    Forbidden.collapseLoop fuel f n = some (.ok r) ↔
      ∃ c l, n.next = [c] ∧ Spine c l ∧ (∀ p m, nodeAt c p = some m → NodeOK m) ∧ r = gather f l := by
  induction fuel generalizing f n with
  | zero => have := Node.size_pos n; omega
  | succ fuel ih =>
    unfold Forbidden.collapseLoop Validate.oneNext
    rcases hn : n.next with _ | ⟨c, _ | ⟨d, ns⟩⟩
    · simp [throwErr]
    · simp only [List.cons.injEq, and_true]
      have hcs : c.size ≤ fuel := by have := Node.size_child (n := n) (c := c) (by simp [hn]); omega
      cases hv : Validate.node c with
      | error e =>
        simp only [Option.some.injEq, reduceCtorEq, false_iff, not_exists, not_and]
        rintro c' l rfl _ h _
        have := (nodeOK_iff c).2 (h [] c rfl)
        rw [this] at hv; cases hv
      | ok u =>
        cases u
        have hok := (nodeOK_iff c).1 hv
        simp only
        obtain ⟨ht, h | ⟨ho, ⟨e, he⟩, ⟨g, hg⟩⟩ | ⟨ho, ⟨e, he⟩, hne⟩⟩ := hok
        · obtain ⟨ho, he, hnx⟩ := h
          have : Forbidden.collapseNode f c = .ok (f, true) := by
            unfold Forbidden.collapseNode; rw [if_pos (by exact ho)]
          rw [this]
          simp only [Option.some.injEq, Except.ok.injEq]
          constructor
          · rintro rfl
            refine ⟨c, _, rfl, .leaf hnx, ?_, ?_⟩
            · intro p m hm
              cases p with
              | nil => simp [nodeAt] at hm; subst hm; exact ⟨ht, Or.inl ⟨ho, he, hnx⟩⟩
              | cons i p => simp [nodeAt, hnx] at hm
            · simp [gather, ho]
          · rintro ⟨c', l, rfl, hs, _, rfl⟩
            cases hs with
            | leaf h => simp [gather, ho]
            | cons h hc => rw [hnx] at h; cases h
        · have : Forbidden.collapseNode f c = .ok ({ f with forbid := e }, false) := by
            unfold Forbidden.collapseNode
            rw [if_neg (by rw [ho]; decide), if_pos (by exact ho), he]
          rw [this]
          simp only
          rw [ih _ c hcs]
          constructor
          · rintro ⟨g', l, h1, h2, h3, rfl⟩
            refine ⟨c, _, rfl, .cons h1 h2, ?_, ?_⟩
            · intro p m hm
              cases p with
              | nil => simp [nodeAt] at hm; subst hm; exact (nodeOK_iff c).1 hv
              | cons i p =>
                simp only [nodeAt, h1] at hm
                cases i with
                | zero => exact h3 p m (by simpa using hm)
                | succ i => simp at hm
            · simp [gather, ho, he, oPass, oFail]
          · rintro ⟨c', l, rfl, hs, h3, rfl⟩
            cases hs with
            | leaf h => rw [hg] at h; cases h
            | cons h hc =>
              refine ⟨_, _, h, hc, ?_, ?_⟩
              · intro p m hm; exact h3 (0 :: p) m (by simp [nodeAt, h, hm])
              · simp [gather, ho, he, oPass, oFail]
        · have : Forbidden.collapseNode f c = .ok ({ f with pre := f.pre ++ [e] }, false) := by
            unfold Forbidden.collapseNode
            rw [if_neg (by rw [ho]; decide), if_neg (by rw [ho]; decide), if_pos (by exact ho), he]
          rw [this]
          simp only
          rw [ih _ c hcs]
          constructor
          · rintro ⟨g', l, h1, h2, h3, rfl⟩
            refine ⟨c, _, rfl, .cons h1 h2, ?_, ?_⟩
            · intro p m hm
              cases p with
              | nil => simp [nodeAt] at hm; subst hm; exact (nodeOK_iff c).1 hv
              | cons i p =>
                simp only [nodeAt, h1] at hm
                cases i with
                | zero => exact h3 p m (by simpa using hm)
                | succ i => simp at hm
            · simp [gather, ho, he, oPass, oFail, oInc]
          · rintro ⟨c', l, rfl, hs, h3, rfl⟩
            cases hs with
            | leaf h => rw [h] at hne; simp at hne
            | cons h hc =>
              refine ⟨_, _, h, hc, ?_, ?_⟩
              · intro p m hm; exact h3 (0 :: p) m (by simp [nodeAt, h, hm])
              · simp [gather, ho, he, oPass, oFail, oInc]
    · simp [throwErr]

/-- The fuel given to the collapse loop is enough, and it never panics. -/
theorem collapseLoop_total (fuel : Nat) (f : Forbidden) (n : Node) (hf : n.size ≤ fuel) :
    ∃ r, Forbidden.collapseLoop fuel f n = some r ∧ r ≠ .error .panic := by
  induction fuel generalizing f n with
  | zero => have := Node.size_pos n; omega
  | succ fuel ih =>
    unfold Forbidden.collapseLoop
    cases ho : Validate.oneNext n with
    | error e =>
      refine ⟨_, rfl, ?_⟩
      rintro h; cases h
      exact oneNext_not_panic n ho
    | ok c =>
      have hc : c ∈ n.next := by
        unfold Validate.oneNext at ho
        split at ho
        · rename_i hn; cases ho; simp [hn]
        · simp [throwErr] at ho
      have hcs : c.size ≤ fuel := by have := Node.size_child hc; omega
      simp only
      cases hv : Validate.node c with
      | error e =>
        refine ⟨_, rfl, ?_⟩
        rintro h; cases h
        exact node_not_panic c hv
      | ok u =>
        cases u
        simp only
        have hok := (nodeOK_iff c).1 hv
        cases hcn : Forbidden.collapseNode f c with
        | ok rb =>
          obtain ⟨r, b⟩ := rb
          cases b with
          | true => exact ⟨_, rfl, by simp⟩
          | false => exact ih r c hcs
        | error e =>
          exfalso
          unfold Forbidden.collapseNode at hcn
          obtain ⟨ht, h | ⟨ho, ⟨e, he⟩, _⟩ | ⟨ho, ⟨e, he⟩, _⟩⟩ := hok
          · rw [if_pos (by exact h.1)] at hcn; cases hcn
          · rw [if_neg (by rw [ho]; decide), if_pos (by exact ho), he] at hcn; cases hcn
          · rw [if_neg (by rw [ho]; decide), if_neg (by rw [ho]; decide), if_pos (by exact ho), he] at hcn; cases hcn

theorem gather_spine (f : Forbidden) (t : Forbidden) :
    gather f (spineOf t) = ⟨f.name, f.pre ++ t.pre, t.forbid⟩ := by
  unfold spineOf
  have : ∀ (pre : Trace) (f : Forbidden),
      gather f (pre.map (fun e => (oInc, some e)) ++ [(oPass, some t.forbid), (oFail, none)]) =
      ⟨f.name, f.pre ++ pre, t.forbid⟩ := by
    intro pre
    induction pre with
    | nil => intro f; simp [gather, oPass, oFail]
    | cons e pre ih =>
      intro f
      simp only [List.map_cons, List.cons_append, gather]
      rw [if_neg (by decide), if_neg (by decide), ih]
      simp
  exact this t.pre f

theorem spine_branch (name : Str) (o : Outcome) (e : Option Event) (l : List (Outcome × Option Event)) :
    Spine { id := [], tests := [name], outcome := o, event := e, next := branch name l } ((o, e) :: l) := by
  induction l generalizing o e with
  | nil => exact .leaf rfl
  | cons x l ih =>
    obtain ⟨o', e'⟩ := x
    exact .cons rfl (ih o' e')

theorem collapse_expand (t : Forbidden) (name : Str) :
    Forbidden.collapse (t.expand name) = some (.ok ⟨[], t.pre, t.forbid⟩) := by
  have hwf := expand_wellFormed t name
  unfold Forbidden.collapse
  rw [(rootOK_iff _).2 hwf.1]
  simp only
  rw [collapseLoop_ok_iff _ _ _ _ (Nat.le_refl _)]
  have hex := expand_eq t name
  obtain ⟨o, e, l, hl⟩ : ∃ o e l, spineOf t = (o, e) :: l := by
    unfold spineOf
    cases t.pre with
    | nil => exact ⟨_, _, _, rfl⟩
    | cons e pre => exact ⟨_, _, _, rfl⟩
  refine ⟨{ id := [], tests := [name], outcome := o, event := e, next := branch name l }, spineOf t, ?_, ?_, ?_, ?_⟩
  · rw [hex, hl]; rfl
  · rw [hl]; exact spine_branch name o e l
  · intro p m hm
    refine hwf.2 (0 :: p) m (by simp) ?_
    have hnx : (t.expand name).next = [{ id := [], tests := [name], outcome := o, event := e, next := branch name l }] := by
      rw [hex, hl]; rfl
    simp [nodeAt, hnx, hm]
  · rw [gather_spine]; rfl

end Rtcg
