import Verif.Spec.Reasons
import Verif.Props.Trace

/-
C120: what an ill-formed test is refused for.
-/

namespace Rtcg

open Spec

theorem given_or_quiet (l : Complaints) : (∃ e, Given l e) ∨ Quiet l := by
  induction l with
  | nil => exact .inr (by simp [Quiet])
  | cons a l ih =>
    obtain ⟨p, e⟩ := a
    by_cases h : p
    · exact .inl ⟨e, .here h⟩
    · rcases ih with ⟨e', he⟩ | hq
      · exact .inl ⟨e', .later h he⟩
      · refine .inr ?_
        intro x hx
        rcases List.mem_cons.1 hx with rfl | hx
        · exact h
        · exact hq x hx

theorem given_not_quiet {l : Complaints} {e : Err} (h : Given l e) : ¬ Quiet l := by
  induction h with
  | @here p e l h => exact fun hq => hq (p, e) (by simp) h
  | later _ _ ih => exact fun hq => ih fun x hx => hq x (by simp [hx])

theorem given_unique {l : Complaints} {e e' : Err} (h : Given l e) (h' : Given l e') : e = e' := by
  induction h with
  | here h =>
    cases h' with
    | here => rfl
    | later hn _ => exact absurd h hn
  | later hn _ ih =>
    cases h' with
    | here h => exact absurd h hn
    | later _ h' => exact ih h'

theorem given_cons {p : Prop} {e e' : Err} {l : Complaints} :
    Given ((p, e') :: l) e ↔ (p ∧ e = e') ∨ (¬ p ∧ Given l e) := by
  constructor
  · intro h
    cases h with
    | here h => exact .inl ⟨h, rfl⟩
    | later h hl => exact .inr ⟨h, hl⟩
  · rintro (⟨h, rfl⟩ | ⟨h, hl⟩)
    · exact .here h
    · exact .later h hl

theorem given_nil {e : Err} : ¬ Given [] e := by intro h; cases h

theorem given_append {l l' : Complaints} {e : Err} : Given (l ++ l') e ↔ Given l e ∨ (Quiet l ∧ Given l' e) := by
  induction l with
  | nil => simp [given_nil, Quiet]
  | cons a l ih =>
    obtain ⟨p, e'⟩ := a
    simp only [List.cons_append, given_cons, ih]
    have : Quiet ((p, e') :: l) ↔ ¬ p ∧ Quiet l := by simp [Quiet]
    rw [this]
    tauto

theorem root_error_iff (n : Node) (e : Err) : Validate.root n = .error (.err e) ↔ Given (rootComplaints n) e := by
  unfold Validate.root rootComplaints
  simp only [given_cons, given_nil]
  by_cases ho : n.outcome = .unset
  · cases he : n.event <;> by_cases ht : n.tests = [] <;> simp [throwErr, ho, ht, oUnset, Outcome.unset, eq_comm]
  · have : n.outcome ≠ oUnset := ho
    cases he : n.event <;> simp [throwErr, ho, this, eq_comm]

theorem node_error_iff (n : Node) (e : Err) : Validate.node n = .error (.err e) ↔ Given (nodeComplaints n) e := by
  unfold Validate.node nodeComplaints
  simp only [given_cons, given_nil]
  by_cases ht : n.tests = []
  · simp [ht, throwErr, eq_comm]
  · have ht' : n.tests.length ≠ 0 := by simpa using ht
    simp only [if_neg ht', ht, false_and, false_or, not_false_eq_true, true_and]
    by_cases h0 : n.outcome = .unset
    · simp [h0, throwErr, Outcome.unset, eq_comm]
    · have e0 : n.outcome ≠ oUnset := h0
      simp only [if_neg h0, e0, false_and, false_or, not_false_eq_true, true_and]
      by_cases h1 : n.outcome = .fail
      · simp only [h1, if_true, Validate.failNode]
        cases he : n.event <;> cases hn : n.next <;> simp [throwErr, Outcome.fail, oFail, oPass, oInc, eq_comm]
      · simp only [if_neg h1]
        by_cases h2 : n.outcome = .pass
        · simp only [h2, if_true, Validate.passNode, Validate.nonFailNode, Validate.oneNext]
          rcases hn : n.next with _ | ⟨c, _ | ⟨d, r⟩⟩
          · simp [throwErr, Outcome.pass, oFail, oPass, oInc, eq_comm]
          · cases he : n.event <;> simp [throwErr, Outcome.pass, oFail, oPass, oInc, eq_comm]
          · simp [throwErr, Outcome.pass, oFail, oPass, oInc, eq_comm]
        · simp only [if_neg h2]
          by_cases h3 : n.outcome = .inc
          · simp only [h3, if_true, Validate.nonFailNode]
            cases he : n.event <;> cases hn : n.next <;>
              simp [throwErr, Outcome.inc, oFail, oPass, oInc, eq_comm]
          · have e1 : n.outcome ≠ oFail := h1
            have e2 : n.outcome ≠ oPass := h2
            have e3 : n.outcome ≠ oInc := h3
            simp [h3, throwErr, e1, e2, e3, eq_comm]

theorem root_ok_iff (n : Node) : Validate.root n = .ok () ↔ Quiet (rootComplaints n) := by
  rcases given_or_quiet (rootComplaints n) with ⟨e, he⟩ | hq
  · simp only [(root_error_iff n e).2 he, reduceCtorEq, false_iff]
    exact given_not_quiet he
  · simp only [hq, iff_true]
    cases hr : Validate.root n with
    | ok u => rfl
    | error f =>
      cases f with
      | err e => exact absurd hq (given_not_quiet ((root_error_iff n e).1 hr))
      | panic =>
        unfold Validate.root throwErr at hr
        repeat' split at hr
        all_goals simp at hr

theorem node_ok_iff (n : Node) : Validate.node n = .ok () ↔ Quiet (nodeComplaints n) := by
  rcases given_or_quiet (nodeComplaints n) with ⟨e, he⟩ | hq
  · simp only [(node_error_iff n e).2 he, reduceCtorEq, false_iff]
    exact given_not_quiet he
  · simp only [hq, iff_true]
    cases hr : Validate.node n with
    | ok u => rfl
    | error f =>
      cases f with
      | err e => exact absurd hq (given_not_quiet ((node_error_iff n e).1 hr))
      | panic => exact absurd hr (node_not_panic n)

/-- What a fold of checks over a list fails with. -/
theorem foldlM_unit_error_iff {α : Type} (g : α → Res Unit) (l : List α) (f : Fail) :
    l.foldlM (fun (_ : Unit) a => g a) () = .error f ↔
      ∃ pre a post, l = pre ++ a :: post ∧ g a = .error f ∧ ∀ b ∈ pre, g b = .ok () := by
  induction l with
  | nil => simp [pure, Except.pure]
  | cons a l ih =>
    rw [List.foldlM_cons]
    simp only [bind, Except.bind]
    cases hg : g a with
    | error f' =>
      simp only [Except.error.injEq]
      constructor
      · rintro rfl; exact ⟨[], a, l, rfl, hg, by simp⟩
      · rintro ⟨pre, b, post, h, hb, hp⟩
        cases pre with
        | nil => cases h; rw [hg] at hb; cases hb; rfl
        | cons c pre =>
          cases h
          have := hp a (by simp)
          rw [hg] at this; cases this
    | ok u =>
      simp only [ih]
      constructor
      · rintro ⟨pre, b, post, rfl, hb, hp⟩
        exact ⟨a :: pre, b, post, rfl, hb, by
          intro c hc
          rcases List.mem_cons.1 hc with rfl | hc
          · exact hg
          · exact hp c hc⟩
      · rintro ⟨pre, b, post, h, hb, hp⟩
        cases pre with
        | nil => cases h; rw [hg] at hb; cases hb
        | cons c pre =>
          cases h
          exact ⟨pre, b, post, rfl, hb, fun d hd => hp d (by simp [hd])⟩

theorem before_asymm {p q : Path} (h : Before p q) : ¬ Before q p := by
  induction h with
  | parent => intro h; cases h
  | sibling h => intro h'; cases h' <;> omega
  | inside _ ih =>
    intro h'
    cases h' with
    | sibling h => omega
    | inside h => exact ih h

/-- The check that full validation makes of the node at a pointer. -/
theorem check_error_iff (pn : Path × Node) (e : Err) :
    (if pn.1 = [] then Validate.root pn.2 else Validate.node pn.2) = .error (.err e) ↔ Given (complaintsAt pn.1 pn.2) e := by
  unfold complaintsAt
  split
  · exact root_error_iff _ _
  · exact node_error_iff _ _

theorem check_ok_iff (pn : Path × Node) :
    (if pn.1 = [] then Validate.root pn.2 else Validate.node pn.2) = .ok () ↔ Quiet (complaintsAt pn.1 pn.2) := by
  unfold complaintsAt
  split
  · exact root_ok_iff _
  · exact node_ok_iff _

theorem full_error_eq (r : Node) (f : Fail) : Validate.full (some r) = some (.error f) ↔
    (preorder [] r).foldlM (fun (_ : Unit) pn => if pn.1 = [] then Validate.root pn.2 else Validate.node pn.2) () = .error f := by
  rw [full_eq]
  cases (preorder [] r).foldlM (fun (_ : Unit) pn => if pn.1 = [] then Validate.root pn.2 else Validate.node pn.2) () <;> simp

/-- An ill-formed test is refused for what is wrong with its first ill-formed node, in pre-order. -/
theorem C120_full (r : Node) (e : Err) : Validate.full (some r) = some (.error (.err e)) ↔ FirstComplaint r e := by
  have key := foldlM_unit_error_iff (fun pn : Path × Node => if pn.1 = [] then Validate.root pn.2 else Validate.node pn.2)
    (preorder [] r) (.err e)
  rw [full_error_eq, key]
  have hs := preorder_sorted r []
  have hmem : ∀ p n, (p, n) ∈ preorder [] r ↔ nodeAt r p = some n := (preorderOf_preorder r).1
  constructor
  · rintro ⟨pre, ⟨p, n⟩, post, hl, hg, hp⟩
    refine ⟨p, n, (hmem p n).1 (by rw [hl]; simp), (check_error_iff _ _).1 hg, ?_⟩
    intro q m hq hb
    have hqm := (hmem q m).2 hq
    rw [hl] at hqm hs
    rcases List.mem_append.1 hqm with h | h
    · exact (check_ok_iff (q, m)).1 (hp _ h)
    · rcases List.mem_cons.1 h with h | h
      · cases h; exact absurd hb (before_irrefl _)
      · have := (List.pairwise_cons.1 (List.pairwise_append.1 hs).2.1).1 _ h
        exact absurd hb (before_asymm this)
  · rintro ⟨p, n, hn, hg, hq⟩
    obtain ⟨pre, post, hl⟩ := List.append_of_mem ((hmem p n).2 hn)
    refine ⟨pre, (p, n), post, hl, (check_error_iff _ _).2 hg, ?_⟩
    rintro ⟨q, m⟩ hm
    have hb : Before q p := by
      rw [hl] at hs
      exact (List.pairwise_append.1 hs).2.2 (q, m) hm (p, n) (List.mem_cons_self ..)
    exact (check_ok_iff (q, m)).2 (hq q m ((hmem q m).1 (by rw [hl]; exact List.mem_append_left _ hm)) hb)

/-- The reason is the only one: a test is refused for one thing, or is well-formed. -/
theorem C120_unique (r : Node) : (∃ e, FirstComplaint r e ∧ ∀ e', FirstComplaint r e' → e' = e) ∨ WellFormed r := by
  by_cases h : WellFormed r
  · exact .inr h
  · left
    obtain ⟨h1, h2⟩ := full_not_panic r
    cases hf : Validate.full (some r) with
    | none => exact absurd hf h2
    | some x =>
      cases x with
      | ok t => exact absurd ((full_ok_iff r t).1 hf).2 h
      | error f =>
        cases f with
        | panic => exact absurd hf h1
        | err e =>
          refine ⟨e, (C120_full r e).1 hf, ?_⟩
          intro e' he'
          have := (C120_full r e').2 he'
          rw [hf] at this
          cases this; rfl

/-- A concrete case: the second child's first child is the first ill-formed node; its outcome is wrong as well as its
event, and the outcome is what is reported.  A later node is ill-formed too. -/
def exReasons : Node :=
  ⟨[], [c!"t"], .unset, none,
    [⟨[], [c!"t"], .fail, none, []⟩,
     ⟨[], [c!"t"], .inc, some ⟨⟨c!"a", .in_⟩, .none⟩, [⟨[], [c!"t"], .unset, none, []⟩]⟩,
     ⟨[], [], .fail, none, []⟩]⟩

example : FirstComplaint exReasons .noOutcome := (C120_full _ _).1 rfl

example : ¬ FirstComplaint exReasons .noTests := fun h => by
  have := (C120_full _ _).2 h
  rw [show Validate.full (some exReasons) = some (.error (.err .noOutcome)) from rfl] at this
  cases this

theorem mapM_error {α β : Type} (g : α → Res β) (l : List α) (f : Fail) (h : l.mapM g = .error f) : ∃ a ∈ l, g a = .error f := by
  induction l with
  | nil => simp [pure, Except.pure] at h
  | cons a l ih =>
    rw [List.mapM_cons] at h
    simp only [bind, Except.bind] at h
    cases hx : g a with
    | error f' => rw [hx] at h; cases h; exact ⟨a, by simp, hx⟩
    | ok b =>
      rw [hx] at h
      simp only at h
      cases hy : l.mapM g with
      | ok y => rw [hy] at h; cases h
      | error f' =>
        rw [hy] at h
        cases h
        obtain ⟨c, hc, h'⟩ := ih hy
        exact ⟨c, by simp [hc], h'⟩

theorem map_error_iff {α β : Type} (g : α → β) (x : Res α) (f : Fail) : x.map g = .error f ↔ x = .error f := by
  cases x <;> simp [Except.map]

/-- A suite without null tests is refused for what is wrong with one of its ill-formed tests: whichever of them comes first
in the order in which the map is visited, and each of them may. -/
theorem C120_suite (s : Validate.Suite) (hs : GoMap.WF s) (hn : ∀ k, (k, none) ∉ s) (e : Err) :
    (∃ s', s.Perm s' ∧ Validate.fullSuite s' = .error (.err e)) ↔ ∃ k r, (k, some r) ∈ s ∧ FirstComplaint r e := by
  constructor
  · rintro ⟨s', hp, h⟩
    have hs' : GoMap.WF s' := (hp.map _).nodup_iff.1 hs
    unfold Validate.fullSuite at h
    rw [tryOver_eq _ s' hs'] at h
    obtain ⟨⟨k, r⟩, hm, h'⟩ := mapM_error _ _ _ h
    simp only [map_error_iff] at h'
    cases r with
    | none => exact absurd (hp.mem_iff.2 hm) (hn k)
    | some r =>
      refine ⟨k, r, hp.mem_iff.2 hm, (C120_full r e).1 ?_⟩
      cases hf : Validate.full (some r) with
      | none => exact absurd hf (full_not_panic r).2
      | some x => simp only [hf, Option.getD_some] at h'; rw [h']
  · rintro ⟨k, r, hm, h⟩
    obtain ⟨pre, post, hl⟩ := List.append_of_mem hm
    have hp : s.Perm ((k, some r) :: (pre ++ post)) := by rw [hl]; exact List.perm_middle
    refine ⟨_, hp, ?_⟩
    unfold Validate.fullSuite
    rw [tryOver_eq _ _ ((hp.map _).nodup_iff.1 hs), List.mapM_cons]
    simp only [(C120_full r e).2 h, Option.getD_some]
    rfl

example : ∃ s' : Validate.Suite, List.Perm [(c!"x", some exReasons), (c!"y", some (Node.root [Node.fail]))] s' ∧
    Validate.fullSuite s' = .error (.err .noTests) :=
  (C120_suite _ (by unfold GoMap.WF; decide) (by simp) _).2 ⟨c!"y", Node.root [Node.fail], by simp, (C120_full _ _).1 rfl⟩

theorem oneNext_error_iff (n : Node) (e : Err) :
    Validate.oneNext n = .error (.err e) ↔ n.next.length ≠ 1 ∧ e = .needOneNode n.next.length := by
  unfold Validate.oneNext throwErr
  rcases n.next with _ | ⟨c, _ | ⟨d, l⟩⟩ <;> simp [eq_comm]

theorem oneNext_ok_iff (n c : Node) : Validate.oneNext n = .ok c ↔ n.next = [c] := by
  unfold Validate.oneNext throwErr
  rcases n.next with _ | ⟨c, _ | ⟨d, l⟩⟩ <;> simp

/-- What the first node along the leftmost branch with a complaint is refused for. -/
def FirstDown (C : Node → Complaints) (n : Node) (e : Err) : Prop :=
  ∃ k m, nodeAt n (List.replicate k 0) = some m ∧ Given (C m) e ∧
    ∀ j < k, ∀ m, nodeAt n (List.replicate j 0) = some m → Quiet (C m)

theorem firstDown_step (C : Node → Complaints) (n : Node) (e : Err) :
    FirstDown C n e ↔ Given (C n) e ∨ (Quiet (C n) ∧ ∃ c cs, n.next = c :: cs ∧ FirstDown C c e) := by
  constructor
  · rintro ⟨k, m, hm, hg, hq⟩
    cases k with
    | zero =>
      simp only [List.replicate_zero, nodeAt, Option.some.injEq] at hm
      subst hm
      exact .inl hg
    | succ k =>
      right
      refine ⟨hq 0 (by omega) n rfl, ?_⟩
      rw [List.replicate_succ] at hm
      unfold nodeAt at hm
      cases hn : n.next with
      | nil => simp [hn] at hm
      | cons c cs =>
        simp only [hn, List.getElem?_cons_zero] at hm
        refine ⟨c, cs, rfl, k, m, hm, hg, ?_⟩
        intro j hj m' hm'
        refine hq (j + 1) (by omega) m' ?_
        rw [List.replicate_succ]
        unfold nodeAt
        simpa [hn] using hm'
  · rintro (hg | ⟨hq, c, cs, hn, k, m, hm, hg, hq'⟩)
    · exact ⟨0, n, rfl, hg, by simp⟩
    · refine ⟨k + 1, m, ?_, hg, ?_⟩
      · rw [List.replicate_succ]; unfold nodeAt; simpa [hn] using hm
      · intro j hj m' hm'
        cases j with
        | zero =>
          simp only [List.replicate_zero, nodeAt, Option.some.injEq] at hm'
          subst hm'; exact hq
        | succ j =>
          rw [List.replicate_succ] at hm'
          unfold nodeAt at hm'
          simp only [hn, List.getElem?_cons_zero] at hm'
          exact hq' j (by omega) m' hm'

/-- The complaints about a node below the root of a branch. -/
def downComplaints (m : Node) : Complaints :=
  nodeComplaints m ++ [(m.outcome ≠ oFail ∧ m.next.length ≠ 1, .needOneNode m.next.length)]

/-- The loop from a node on: either it has not just one child, or something is wrong further down. -/
theorem collapseLoop_error_iff (fuel : Nat) (acc : Forbidden) (n : Node) (hf : n.size ≤ fuel) (e : Err) :
    Forbidden.collapseLoop fuel acc n = some (.error (.err e)) ↔
      (n.next.length ≠ 1 ∧ e = .needOneNode n.next.length) ∨ ∃ c, n.next = [c] ∧ FirstDown downComplaints c e := by
  induction fuel generalizing acc n with
  | zero => have := Node.size_pos n; omega
  | succ fuel ih =>
    unfold Forbidden.collapseLoop
    cases hone : Validate.oneNext n with
    | error f =>
      have hlen : ∀ c, n.next ≠ [c] := by
        intro c hc; rw [(oneNext_ok_iff n c).2 hc] at hone; cases hone
      simp only [Option.some.injEq, Except.error.injEq]
      constructor
      · rintro rfl; exact .inl ((oneNext_error_iff n e).1 hone)
      · rintro (h | ⟨c, hc, _⟩)
        · rw [(oneNext_error_iff n e).2 h] at hone; cases hone; rfl
        · exact absurd hc (hlen c)
    | ok c =>
      have hc := (oneNext_ok_iff n c).1 hone
      have hsz : c.size ≤ fuel := by have := Node.size_child (n := n) (c := c) (by simp [hc]); omega
      have hlhs : ((n.next.length ≠ 1 ∧ e = .needOneNode n.next.length) ∨ ∃ c, n.next = [c] ∧ FirstDown downComplaints c e) ↔
          FirstDown downComplaints c e := by simp [hc]
      rw [hlhs, firstDown_step]
      have hgd : Given (downComplaints c) e ↔ Given (nodeComplaints c) e ∨
          (Quiet (nodeComplaints c) ∧ (c.outcome ≠ oFail ∧ c.next.length ≠ 1) ∧ e = .needOneNode c.next.length) := by
        unfold downComplaints
        rw [given_append, given_cons]
        simp [given_nil]
      have hqd : Quiet (downComplaints c) ↔ Quiet (nodeComplaints c) ∧ ¬ (c.outcome ≠ oFail ∧ c.next.length ≠ 1) := by
        unfold downComplaints Quiet
        simp only [List.mem_append, List.mem_singleton]
        constructor
        · intro h; exact ⟨fun x hx => h x (.inl hx), h _ (.inr rfl)⟩
        · rintro ⟨h1, h2⟩ x (hx | rfl)
          · exact h1 x hx
          · exact h2
      simp only
      cases hnode : Validate.node c with
      | error f =>
        have hnq : ¬ Quiet (nodeComplaints c) := by
          rw [← node_ok_iff, hnode]; simp
        simp only [hgd, hqd, hnq, false_and, or_false, Option.some.injEq, Except.error.injEq, ← node_error_iff, hnode]
      | ok u =>
        cases u
        have hq := (node_ok_iff c).1 hnode
        have hng : ¬ Given (nodeComplaints c) e := fun h => given_not_quiet h hq
        obtain ⟨_, h | ⟨ho, ⟨ev, he⟩, _⟩ | ⟨ho, ⟨ev, he⟩, _⟩⟩ := (nodeOK_iff c).1 hnode
        · have : Forbidden.collapseNode acc c = .ok (acc, true) := by
            unfold Forbidden.collapseNode; exact if_pos h.1
          simp [this, hgd, hng, h.1, h.2.2]
        all_goals
          obtain ⟨acc', hstep⟩ : ∃ acc', Forbidden.collapseNode acc c = .ok (acc', false) := by
            unfold Forbidden.collapseNode
            simp [ho, he, oPass, oInc, Outcome.fail, Outcome.pass, Outcome.inc]
          have hnf : c.outcome ≠ oFail := by rw [ho]; simp [oPass, oInc, oFail]
          simp only [hstep, ih acc' c hsz, hgd, hqd, hng, hq, hnf, ne_eq, not_false_eq_true, true_and, false_or, not_not]
          constructor
          · rintro (h | ⟨d, hd, h⟩)
            · exact .inl h
            · exact .inr ⟨by simp [hd], d, [], hd, h⟩
          · rintro (h | ⟨hl, d, ds, hd, h⟩)
            · exact .inl h
            · rw [hd] at hl
              simp only [List.length_cons, Nat.add_eq_right, List.length_eq_zero_iff] at hl
              subst hl
              exact .inr ⟨d, hd, h⟩

/-- A tree that is not the tree of a trace is refused by Collapse for what is wrong with the first bad node of its branch. -/
theorem C120_collapse (n : Node) (e : Err) :
    Forbidden.collapse n = some (.error (.err e)) ↔ FirstBranchComplaint n e := by
  have hbc0 : branchComplaints (List.replicate 0 0) n =
      rootComplaints n ++ [(n.outcome ≠ oFail ∧ n.next.length ≠ 1, .needOneNode n.next.length)] := rfl
  have hbc : ∀ k m, branchComplaints (List.replicate (k + 1) 0) m = downComplaints m := by
    intro k m; simp [branchComplaints, downComplaints, complaintsAt, List.replicate_succ]
  have hstep : FirstBranchComplaint n e ↔ Given (branchComplaints (List.replicate 0 0) n) e ∨
      (Quiet (branchComplaints (List.replicate 0 0) n) ∧ ∃ c cs, n.next = c :: cs ∧ FirstDown downComplaints c e) := by
    constructor
    · rintro ⟨k, m, hm, hg, hq⟩
      cases k with
      | zero =>
        simp only [List.replicate_zero, nodeAt, Option.some.injEq] at hm
        subst hm
        exact .inl hg
      | succ k =>
        right
        refine ⟨hq 0 (by omega) n rfl, ?_⟩
        rw [hbc] at hg
        rw [List.replicate_succ] at hm
        unfold nodeAt at hm
        cases hn : n.next with
        | nil => simp [hn] at hm
        | cons c cs =>
          simp only [hn, List.getElem?_cons_zero] at hm
          refine ⟨c, cs, rfl, k, m, hm, hg, ?_⟩
          intro j hj m' hm'
          have := hq (j + 1) (by omega) m' (by
            rw [List.replicate_succ]; unfold nodeAt; simpa [hn] using hm')
          rwa [hbc] at this
    · rintro (hg | ⟨hq, c, cs, hn, k, m, hm, hg, hq'⟩)
      · exact ⟨0, n, rfl, hg, by simp⟩
      · refine ⟨k + 1, m, ?_, by rwa [hbc], ?_⟩
        · rw [List.replicate_succ]; unfold nodeAt; simpa [hn] using hm
        · intro j hj m' hm'
          cases j with
          | zero =>
            simp only [List.replicate_zero, nodeAt, Option.some.injEq] at hm'
            subst hm'; exact hq
          | succ j =>
            rw [hbc]
            rw [List.replicate_succ] at hm'
            unfold nodeAt at hm'
            simp only [hn, List.getElem?_cons_zero] at hm'
            exact hq' j (by omega) m' hm'
  rw [hstep, hbc0, given_append, given_cons]
  unfold Forbidden.collapse
  cases hr : Validate.root n with
  | error f =>
    have hnq : ¬ Quiet (rootComplaints n) := by rw [← root_ok_iff, hr]; simp
    have hnq' : ¬ Quiet (rootComplaints n ++ [(n.outcome ≠ oFail ∧ n.next.length ≠ 1, Err.needOneNode n.next.length)]) :=
      fun h => hnq fun x hx => h x (by simp [hx])
    simp [hnq, hnq', ← root_error_iff, hr]
  | ok u =>
    cases u
    have hq := (root_ok_iff n).1 hr
    have hng : ¬ Given (rootComplaints n) e := fun h => given_not_quiet h hq
    have ho : n.outcome ≠ oFail := by
      have := ((rootOK_iff n).1 hr).2.1
      rw [this]; simp [oUnset, oFail]
    have hq' : Quiet (rootComplaints n ++ [(n.outcome ≠ oFail ∧ n.next.length ≠ 1, Err.needOneNode n.next.length)]) ↔
        n.next.length = 1 := by
      constructor
      · intro h
        have := h (n.outcome ≠ oFail ∧ n.next.length ≠ 1, Err.needOneNode n.next.length) (by simp)
        simpa [ho] using this
      · intro h x hx
        rcases List.mem_append.1 hx with hx | hx
        · exact hq x hx
        · rw [List.mem_singleton] at hx
          subst hx
          simp [h]
    rw [hq']
    simp only [hq, hng, ho, given_nil, collapseLoop_error_iff n.size _ n (Nat.le_refl _) e, ne_eq, not_false_eq_true,
      true_and, false_or, and_false, or_false]
    constructor
    · rintro (h | ⟨d, hd, h⟩)
      · exact .inl h
      · exact .inr ⟨by simp [hd], d, [], hd, h⟩
    · rintro (h | ⟨hl, d, ds, hd, h⟩)
      · exact .inl h
      · rw [hd] at hl
        simp only [List.length_cons, Nat.add_eq_right, List.length_eq_zero_iff] at hl
        subst hl
        exact .inr ⟨d, hd, h⟩

example : FirstBranchComplaint exReasons (.needOneNode 3) := (C120_collapse _ _).1 rfl

example : FirstBranchComplaint ⟨[], [c!"t"], .unset, none,
    [⟨[], [c!"t"], .inc, some ⟨⟨c!"a", .in_⟩, .none⟩, [⟨[], [], .fail, none, []⟩]⟩]⟩ .noTests := (C120_collapse _ _).1 rfl

end Rtcg
