import Verif.Spec.Tree
import Verif.Proofs.Lang

namespace Rtcg
open Rtcg.Spec

/-! ### trees -/

theorem Node.sizes_eq (l : List Node) : Node.size.sizes l = (l.map Node.size).sum := by
  induction l with
  | nil => rfl
  | cons n ns ih => simp [Node.size.sizes, ih]

theorem Node.size_eq (n : Node) : n.size = 1 + (n.next.map Node.size).sum := by
  obtain ⟨i, t, o, e, ns⟩ := n
  simp [Node.size, Node.sizes_eq]

theorem Node.size_pos (n : Node) : 0 < n.size := by rw [Node.size_eq]; omega

theorem Node.size_child {n c : Node} (h : c ∈ n.next) : c.size < n.size := by
  rw [Node.size_eq n]
  have : c.size ≤ (n.next.map Node.size).sum := by
    have hm : c.size ∈ n.next.map Node.size := List.mem_map_of_mem h
    generalize n.next.map Node.size = l at hm
    induction l with
    | nil => simp at hm
    | cons a l ih =>
      simp at hm ⊢
      rcases hm with h | h
      · omega
      · have := ih h; omega
  omega

theorem Node.ind {P : Node → Prop} (h : ∀ n, (∀ c ∈ n.next, P c) → P n) (n : Node) : P n := by
  induction hn : n.size using Nat.strongRecOn generalizing n with
  | ind k ih => exact h n fun c hc => ih c.size (by have := Node.size_child hc; omega) c rfl

/-- Pre-order listing of a subtree. -/
def preorder (p : Path) : Node → List (Path × Node)
  | ⟨id, tests, outcome, event, next⟩ => (p, ⟨id, tests, outcome, event, next⟩) :: go p 0 next
where
  go (p : Path) : Nat → List Node → List (Path × Node)
  | _, [] => []
  | i, n :: ns => preorder (p ++ [i]) n ++ go p (i + 1) ns

theorem preorder_go_eq (p : Path) (i : Nat) (ns : List Node) :
    preorder.go p i ns = (ns.mapIdx (fun k c => (p ++ [i + k], c))).flatMap (fun pn => preorder pn.1 pn.2) := by
  induction ns generalizing i with
  | nil => simp [preorder.go]
  | cons n ns ih =>
    simp only [preorder.go, List.mapIdx_cons, List.flatMap_cons, Nat.add_zero]
    rw [ih]
    simp only [Nat.add_assoc, Nat.add_comm 1]

theorem preorder_eq (p : Path) (n : Node) :
    preorder p n = (p, n) :: (n.children p).flatMap (fun pn => preorder pn.1 pn.2) := by
  obtain ⟨i, t, o, e, ns⟩ := n
  rw [preorder, preorder_go_eq]
  simp [Node.children]

theorem mem_children {p : Path} {n : Node} {q : Path} {c : Node} :
    (q, c) ∈ n.children p ↔ ∃ i, q = p ++ [i] ∧ n.next[i]? = some c := by
  unfold Node.children
  rw [List.mem_mapIdx]
  constructor
  · rintro ⟨i, h, e⟩
    simp at e
    exact ⟨i, e.1.symm, by rw [List.getElem?_eq_getElem h, e.2]⟩
  · rintro ⟨i, rfl, h⟩
    obtain ⟨h1, h2⟩ := List.getElem?_eq_some_iff.1 h
    exact ⟨i, h1, by rw [h2]⟩

theorem mem_preorder {n : Node} {p q : Path} {m : Node} :
    (q, m) ∈ preorder p n ↔ ∃ r, q = p ++ r ∧ nodeAt n r = some m := by
  induction n using Node.ind generalizing p q m with
  | h n ih =>
    rw [preorder_eq]
    simp only [List.mem_cons, List.mem_flatMap, Prod.mk.injEq]
    constructor
    · rintro (⟨rfl, rfl⟩ | ⟨⟨q', c⟩, hc, hm⟩)
      · exact ⟨[], by simp, rfl⟩
      · obtain ⟨i, rfl, hi⟩ := mem_children.1 hc
        obtain ⟨r, rfl, hr⟩ := (ih c (List.mem_of_getElem? hi)).1 hm
        exact ⟨i :: r, by simp, by simp [nodeAt, hi, hr]⟩
    · rintro ⟨r, rfl, hr⟩
      cases r with
      | nil => simp [nodeAt] at hr; exact Or.inl ⟨by simp, hr.symm⟩
      | cons i r =>
        right
        simp only [nodeAt] at hr
        cases hi : n.next[i]? with
        | none => rw [hi] at hr; cases hr
        | some c =>
          rw [hi] at hr
          refine ⟨(p ++ [i], c), mem_children.2 ⟨i, rfl, hi⟩, (ih c (List.mem_of_getElem? hi)).2 ⟨r, by simp, hr⟩⟩

theorem before_append (p : Path) {q r : Path} (h : Before q r) : Before (p ++ q) (p ++ r) := by
  induction p with
  | nil => exact h
  | cons i p ih => exact .inside ih

theorem before_irrefl (p : Path) : ¬ Before p p := by
  induction p with
  | nil => intro h; cases h
  | cons i p ih =>
    intro h
    cases h with
    | sibling h => omega
    | inside h => exact ih h

theorem preorder_sorted (n : Node) (p : Path) : (preorder p n).Pairwise (fun a b => Before a.1 b.1) := by
  induction n using Node.ind generalizing p with
  | h n ih =>
    rw [preorder_eq, List.pairwise_cons]
    constructor
    · rintro ⟨q, m⟩ hm
      simp only [List.mem_flatMap] at hm
      obtain ⟨⟨q', c⟩, hc, hm⟩ := hm
      obtain ⟨i, rfl, hi⟩ := mem_children.1 hc
      obtain ⟨r, rfl, hr⟩ := mem_preorder.1 hm
      have := before_append p (q := []) (r := i :: r) .parent
      simpa using this
    · rw [List.pairwise_flatMap]
      constructor
      · rintro ⟨q, c⟩ hc
        obtain ⟨i, rfl, hi⟩ := mem_children.1 hc
        exact ih c (List.mem_of_getElem? hi) _
      · unfold Node.children
        rw [List.pairwise_iff_getElem]
        intro i j hi hj hij
        simp only [List.getElem_mapIdx]
        rintro ⟨q, m⟩ hm ⟨q', m'⟩ hm'
        obtain ⟨r, rfl, _⟩ := mem_preorder.1 hm
        obtain ⟨r', rfl, _⟩ := mem_preorder.1 hm'
        have := before_append p (Before.sibling (p := r) (q := r') hij)
        simpa using this

theorem preorderOf_preorder (n : Node) : PreorderOf n (preorder [] n) :=
  ⟨fun p m => by rw [mem_preorder]; simp, preorder_sorted n []⟩

theorem preorder_nodup (n : Node) (p : Path) : ((preorder p n).map (·.1)).Nodup := by
  rw [List.Nodup, List.pairwise_map]
  refine (preorder_sorted n p).imp ?_
  rintro ⟨a, _⟩ ⟨b, _⟩ h e
  simp only at h e
  subst e
  exact before_irrefl _ h

theorem preorder_length (n : Node) (p : Path) : (preorder p n).length = n.size := by
  induction n using Node.ind generalizing p with
  | h n ih =>
    rw [preorder_eq, Node.size_eq]
    simp only [List.length_cons, List.length_flatMap]
    have : (n.children p).map (fun pn => (preorder pn.1 pn.2).length) = n.next.map Node.size := by
      apply List.ext_getElem
      · simp [Node.children]
      · intro i h1 h2
        simp [Node.children]
        exact ih _ (List.getElem_mem _) _
    rw [this]; omega

/-! ### stacks -/

theorem Stack.push_items {α : Type} (l xs : List α) :
    xs.foldl Stack.push ⟨l, l.length⟩ = ⟨l ++ xs, (l ++ xs).length⟩ := by
  induction xs generalizing l with
  | nil => simp
  | cons x xs ih =>
    have : Stack.push ⟨l, l.length⟩ x = ⟨l ++ [x], (l ++ [x]).length⟩ := by simp [Stack.push]
    rw [List.foldl_cons, this, ih]; simp

theorem Stack.pop_concat {α : Type} (l : List α) (x : α) :
    Stack.pop ⟨l ++ [x], (l ++ [x]).length⟩ = .ok (x, ⟨l, l.length⟩) := by
  simp [Stack.pop]

/-! ### Walk -/

theorem walkLoop_eq {σ : Type} (f : σ → Path → Node → Res σ) (fuel : Nat) (todo : List (Path × Node)) (s : σ)
    (h : (todo.map (fun pn => pn.2.size)).sum < fuel) :
    Node.walkLoop f fuel ⟨todo.reverse, todo.reverse.length⟩ s =
      some ((todo.flatMap (fun pn => preorder pn.1 pn.2)).foldlM (fun s pn => f s pn.1 pn.2) s) := by
  induction fuel generalizing todo s with
  | zero => omega
  | succ fuel ih =>
    unfold Node.walkLoop
    cases todo with
    | nil => simp [Stack.isEmpty, pure, Except.pure]
    | cons pn todo =>
      obtain ⟨p, n⟩ := pn
      rw [if_neg (by simp [Stack.isEmpty])]
      rw [List.reverse_cons, Stack.pop_concat]
      simp only [List.flatMap_cons]
      rw [preorder_eq, List.cons_append, List.foldlM_cons]
      simp only [bind, Except.bind]
      cases hf : f s p n with
      | error e => rfl
      | ok s' =>
        simp only
        rw [Stack.push_items]
        have e1 : todo.reverse ++ (n.children p).reverse = (n.children p ++ todo).reverse := by simp
        rw [e1, ih (n.children p ++ todo) s' ?_]
        · simp
        · simp only [List.map_append, List.sum_append, List.map_cons, List.sum_cons] at h ⊢
          have h2 : (n.children p).map (fun pn => pn.2.size) = n.next.map Node.size := by
            apply List.ext_getElem <;> simp [Node.children]
          rw [h2]
          rw [Node.size_eq] at h
          omega

theorem walk_eq {σ : Type} (f : σ → Path → Node → Res σ) (root : Node) (s : σ) :
    Node.walk f root s = some ((preorder [] root).foldlM (fun s pn => f s pn.1 pn.2) s) := by
  unfold Node.walk
  have := walkLoop_eq f (root.size + 1) [([], root)] s (by simp)
  simpa [Stack.empty, Stack.push] using this

/-! ### checks folded over a list -/

theorem foldlM_unit_ok_iff {α : Type} (g : α → Res Unit) (l : List α) :
    l.foldlM (fun (_ : Unit) a => g a) () = .ok () ↔ ∀ a ∈ l, g a = .ok () := by
  induction l with
  | nil => simp [pure, Except.pure]
  | cons a l ih =>
    rw [List.foldlM_cons]
    simp only [bind, Except.bind, List.mem_cons, forall_eq_or_imp]
    cases hg : g a with
    | error e => simp
    | ok u => simp [ih]

theorem foldlM_unit_error {α : Type} (g : α → Res Unit) (l : List α) (e : Fail)
    (h : l.foldlM (fun (_ : Unit) a => g a) () = .error e) : ∃ a ∈ l, g a = .error e := by
  induction l with
  | nil => simp [pure, Except.pure] at h
  | cons a l ih =>
    rw [List.foldlM_cons] at h
    simp only [bind, Except.bind] at h
    cases hg : g a with
    | error e' => rw [hg] at h; cases h; exact ⟨a, by simp, hg⟩
    | ok u =>
      rw [hg] at h
      obtain ⟨b, hb, h'⟩ := ih h
      exact ⟨b, by simp [hb], h'⟩

/-! ### Validation -/

theorem rootOK_iff (n : Node) : Validate.root n = .ok () ↔ RootOK n := by
  unfold Validate.root RootOK
  cases he : n.event <;> simp [throwErr]
  by_cases ho : n.outcome = .unset
  · by_cases ht : n.tests = []
    · simp [ho, ht]
    · simp only [ho, ht]
      simp [oUnset, Outcome.unset]
  · have : n.outcome ≠ oUnset := ho
    simp [ho, this]

theorem nodeOK_iff (n : Node) : Validate.node n = .ok () ↔ NodeOK n := by
  unfold Validate.node NodeOK
  by_cases ht : n.tests = []
  · simp [ht, throwErr]
  · have ht' : n.tests.length ≠ 0 := by simpa using ht
    simp only [if_neg ht']
    by_cases h0 : n.outcome = .unset
    · simp [h0, throwErr, Outcome.unset, oFail, oPass, oInc]
    · simp only [if_neg h0]
      by_cases h1 : n.outcome = .fail
      · simp only [h1, if_true, Validate.failNode]
        cases he : n.event <;> simp [throwErr, Outcome.fail, oFail, oPass, oInc, ht]
      · simp only [if_neg h1]
        by_cases h2 : n.outcome = .pass
        · simp only [h2, if_true, Validate.passNode, Validate.nonFailNode, Validate.oneNext]
          rcases hn : n.next with _ | ⟨c, _ | ⟨d, r⟩⟩
          · simp [throwErr, Outcome.pass, oFail, oPass, oInc]
          · cases he : n.event <;> simp [throwErr, Outcome.pass, oFail, oPass, oInc, ht]
          · simp [throwErr, Outcome.pass, oFail, oPass, oInc]
        · simp only [if_neg h2]
          by_cases h3 : n.outcome = .inc
          · simp only [h3, if_true, Validate.nonFailNode]
            cases he : n.event <;> cases hn : n.next <;>
              simp [throwErr, Outcome.inc, oFail, oPass, oInc, ht]
          · have e1 : n.outcome ≠ oFail := h1
            have e2 : n.outcome ≠ oPass := h2
            have e3 : n.outcome ≠ oInc := h3
            simp [h3, throwErr, e1, e2, e3]

theorem full_eq (r : Node) : Validate.full (some r) =
    some (match (preorder [] r).foldlM (fun (_ : Unit) pn => if pn.1 = [] then Validate.root pn.2 else Validate.node pn.2) () with
      | .error e => .error e
      | .ok () => .ok ⟨r⟩) := by
  unfold Validate.full
  simp only
  rw [walk_eq]
  cases (preorder [] r).foldlM (fun (_ : Unit) pn => if pn.1 = [] then Validate.root pn.2 else Validate.node pn.2) () <;> rfl

theorem full_ok_iff (r : Node) (t : Validate.Test) :
    Validate.full (some r) = some (.ok t) ↔ t = ⟨r⟩ ∧ WellFormed r := by
  rw [full_eq]
  have key := foldlM_unit_ok_iff (fun pn : Path × Node => if pn.1 = [] then Validate.root pn.2 else Validate.node pn.2)
    (preorder [] r)
  have wf : (∀ a ∈ preorder [] r, (if a.1 = [] then Validate.root a.2 else Validate.node a.2) = .ok ()) ↔ WellFormed r := by
    unfold WellFormed
    constructor
    · intro h
      constructor
      · have := h ([], r) (mem_preorder.2 ⟨[], rfl, rfl⟩)
        simpa [rootOK_iff] using this
      · intro p n hp hn
        have := h (p, n) (mem_preorder.2 ⟨p, by simp, hn⟩)
        simpa [hp, nodeOK_iff] using this
    · rintro ⟨h1, h2⟩ ⟨p, n⟩ hm
      obtain ⟨q, hpq, hn⟩ := mem_preorder.1 hm
      simp only [List.nil_append] at hpq
      rw [← hpq] at hn
      clear hpq q
      by_cases hq : p = []
      · subst hq; simp [nodeAt] at hn; subst hn; simpa [rootOK_iff] using h1
      · simpa [hq, nodeOK_iff] using h2 p n hq hn
  cases hf : (preorder [] r).foldlM (fun (_ : Unit) pn => if pn.1 = [] then Validate.root pn.2 else Validate.node pn.2) () with
  | error e =>
    simp only [Option.some.injEq, reduceCtorEq, false_iff, not_and]
    intro _ h
    rw [← wf, ← key, hf] at h; cases h
  | ok u =>
    cases u
    have := wf.1 (key.1 hf)
    simp [this, eq_comm]

theorem oneNext_not_panic (n : Node) : Validate.oneNext n ≠ .error .panic := by
  unfold Validate.oneNext throwErr
  split <;> simp

theorem node_not_panic (n : Node) : Validate.node n ≠ .error .panic := by
  have h1 : Validate.nonFailNode n ≠ .error .panic := by
    unfold Validate.nonFailNode throwErr
    repeat' split
    all_goals simp
  unfold Validate.node
  split
  · simp [throwErr]
  split
  · simp [throwErr]
  split
  · unfold Validate.failNode throwErr
    repeat' split
    all_goals simp
  split
  · unfold Validate.passNode
    cases ho : Validate.oneNext n with
    | ok c => simpa using h1
    | error e =>
      simp only [ne_eq, Except.error.injEq]
      rintro rfl
      exact oneNext_not_panic n ho
  split
  · exact h1
  · simp [throwErr]

/-- Validation of an existing tree returns a test or an error. -/
theorem full_not_panic (r : Node) : Validate.full (some r) ≠ some (.error .panic) ∧ Validate.full (some r) ≠ none := by
  rw [full_eq]
  constructor
  · cases hf : (preorder [] r).foldlM (fun (_ : Unit) pn => if pn.1 = [] then Validate.root pn.2 else Validate.node pn.2) () with
    | ok u => simp
    | error e =>
      obtain ⟨⟨p, n⟩, _, h⟩ := foldlM_unit_error (fun pn : Path × Node =>
        if pn.1 = [] then Validate.root pn.2 else Validate.node pn.2) _ _ hf
      intro h'
      simp only [Option.some.injEq, Except.error.injEq] at h'
      subst h'
      simp only at h
      split at h
      · unfold Validate.root throwErr at h; repeat' split at h
        all_goals simp at h
      · exact node_not_panic n h
  · simp

/-! ### structure.TryOverMapValues, OverMap -/

theorem tryOver_go {κ τ υ : Type} [DecidableEq κ] (mapper : τ → Res υ) (m : GoMap κ τ) (acc : GoMap κ υ)
    (hd : (acc.map (·.1) ++ m.map (·.1)).Nodup) :
    tryOverMapValues.go mapper m acc =
      match m.mapM (fun kv => (mapper kv.2).map (fun v => (kv.1, v))) with
      | .error e => .error e
      | .ok l => .ok (acc ++ l) := by
  induction m generalizing acc with
  | nil => simp [tryOverMapValues.go, pure, Except.pure]
  | cons kv m ih =>
    obtain ⟨k, v⟩ := kv
    unfold tryOverMapValues.go
    rw [List.mapM_cons]
    simp only [bind, Except.bind]
    cases hv : mapper v with
    | error e => rfl
    | ok w =>
      have hv' : Except.map (fun v => (k, v)) (Except.ok w : Res υ) = .ok (k, w) := rfl
      simp only [hv']
      have hk : GoMap.set acc k w = acc ++ [(k, w)] := by
        have hnot : k ∉ acc.map (·.1) := by
          intro hk
          rw [List.nodup_append] at hd
          exact hd.2.2 k hk k (by simp) rfl
        clear hd ih hv
        induction acc with
        | nil => rfl
        | cons a acc ih =>
          obtain ⟨k', v'⟩ := a
          simp at hnot
          unfold GoMap.set
          rw [if_neg (fun e => hnot.1 e.symm), ih (by simpa using hnot.2)]; rfl
      rw [hk, ih (acc ++ [(k, w)]) (by simpa using hd)]
      cases m.mapM (fun kv => (mapper kv.2).map (fun v => (kv.1, v))) <;> simp [pure, Except.pure]

theorem tryOver_eq {κ τ υ : Type} [DecidableEq κ] (mapper : τ → Res υ) (m : GoMap κ τ) (hm : GoMap.WF m) :
    tryOverMapValues mapper m = m.mapM (fun kv => (mapper kv.2).map (fun v => (kv.1, v))) := by
  unfold tryOverMapValues
  rw [tryOver_go mapper m [] (by simpa [GoMap.WF] using hm)]
  cases m.mapM (fun kv => (mapper kv.2).map (fun v => (kv.1, v))) <;> simp

theorem set_append_new {κ α : Type} [DecidableEq κ] (acc : GoMap κ α) (k : κ) (w : α) (h : k ∉ acc.map (·.1)) :
    GoMap.set acc k w = acc ++ [(k, w)] := by
  induction acc with
  | nil => rfl
  | cons a acc ih =>
    obtain ⟨k', v'⟩ := a
    simp at h
    unfold GoMap.set
    rw [if_neg (fun e => h.1 e.symm), ih (by simpa using h.2)]; rfl

/-- `OverMap` with a mapper that keeps the keys. -/
theorem overMap_keys {κ τ υ : Type} [DecidableEq κ] (g : κ → τ → υ) (m : GoMap κ τ) (hm : GoMap.WF m) :
    overMap (fun k v => (k, g k v)) m = m.map (fun kv => (kv.1, g kv.1 kv.2)) := by
  unfold overMap
  have key : ∀ (m : GoMap κ τ) (acc : GoMap κ υ), (acc.map (·.1) ++ m.map (·.1)).Nodup →
      m.foldl (fun result kv => GoMap.set result kv.1 (g kv.1 kv.2)) acc = acc ++ m.map (fun kv => (kv.1, g kv.1 kv.2)) := by
    intro m
    induction m with
    | nil => simp
    | cons kv m ih =>
      intro acc hd
      obtain ⟨k, v⟩ := kv
      simp only [List.foldl_cons, List.map_cons]
      rw [set_append_new]
      · rw [ih _ (by simpa using hd)]; simp
      · intro hk
        rw [List.nodup_append] at hd
        exact hd.2.2 k hk k (by simp) rfl
  simpa using key m [] (by simpa [GoMap.WF] using hm)

theorem mapM_map_ok_iff {α β : Type} (f : α → Res β) (l : List α) (es : List β) :
    l.mapM f = .ok es ↔ l.map f = es.map Except.ok := by
  induction l generalizing es with
  | nil => cases es <;> simp [pure, Except.pure]
  | cons a l ih =>
    rw [List.mapM_cons]
    simp only [bind, Except.bind]
    cases hf : f a with
    | error e => cases es <;> simp [hf]
    | ok b =>
      simp only
      cases hm : l.mapM f with
      | error e =>
        cases es with
        | nil => simp
        | cons e' es =>
          simp only [List.map_cons, hf, List.cons.injEq, Except.ok.injEq, reduceCtorEq, false_iff, not_and]
          intro _ h
          rw [(ih es).2 h] at hm; cases hm
      | ok bs =>
        cases es with
        | nil => simp [pure, Except.pure]
        | cons e' es =>
          simp only [pure, Except.pure, Except.ok.injEq, List.map_cons, hf, List.cons.injEq]
          rw [← ih es, hm]; simp

theorem tryOver_ok_iff {κ τ υ : Type} [DecidableEq κ] (mapper : τ → Res υ) (m : GoMap κ τ) (hm : GoMap.WF m)
    (r : GoMap κ υ) :
    tryOverMapValues mapper m = .ok r ↔
      r.map (·.1) = m.map (·.1) ∧ m.map (fun kv => mapper kv.2) = r.map (fun kv => Except.ok kv.2) := by
  rw [tryOver_eq mapper m hm, mapM_map_ok_iff]
  clear hm
  induction m generalizing r with
  | nil => cases r <;> simp
  | cons kv m ih =>
    cases r with
    | nil => simp
    | cons kw r =>
      simp only [List.map_cons, List.cons.injEq, ih]
      obtain ⟨k, v⟩ := kv
      obtain ⟨k', w⟩ := kw
      simp only
      cases mapper v <;> simp [Except.map]
      tauto

end Rtcg
