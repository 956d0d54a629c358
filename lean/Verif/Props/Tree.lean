import Verif.Proofs.Tree

/-
C22–C26, C41: walking, tagging and validating trees; stacks and sets.
-/

namespace Rtcg
open Rtcg.Spec

/-! ### C22 -/

/-- Walk runs the visitor over the list of all nodes (each once, parents first, children left to right), threading its
state and stopping at the first error with that error. -/
theorem C22_walk_preorder (root : Node) :
    ∃ l, PreorderOf root l ∧
      ∀ {σ : Type} (f : σ → Path → Node → Res σ) (s : σ),
        Node.walk f root s = some (l.foldlM (fun s pn => f s pn.1 pn.2) s) :=
  ⟨preorder [] root, preorderOf_preorder root, fun f s => walk_eq f root s⟩

/-- Pre-order listings are unique, so the order of visits is determined by the tree. -/
theorem C22_order_unique (root : Node) (l l' : List (Path × Node)) (h : PreorderOf root l) (h' : PreorderOf root l') :
    l = l' := by
  have trans : ∀ {a b c : Path}, Before a b → Before b c → Before a c := by
    intro a b c h1
    induction h1 generalizing c with
    | parent => intro h2; cases h2 <;> exact .parent
    | sibling h =>
      intro h2
      cases h2 with
      | sibling h' => exact .sibling (by omega)
      | inside h' => exact .sibling h
    | inside h ih =>
      intro h2
      cases h2 with
      | sibling h' => exact .sibling h'
      | inside h' => exact .inside (ih h')
  have asymm : ∀ {a b : Path}, Before a b → Before b a → False := fun h1 h2 => before_irrefl _ (trans h1 h2)
  have key : ∀ (l l' : List (Path × Node)), l.Pairwise (fun a b => Before a.1 b.1) →
      l'.Pairwise (fun a b => Before a.1 b.1) → (∀ x, x ∈ l ↔ x ∈ l') → l = l' := by
    intro l
    induction l with
    | nil =>
      intro l' _ _ h
      cases l' with
      | nil => rfl
      | cons a l' => simpa using h a
    | cons a l ih =>
      intro l' h1 h2 h
      cases l' with
      | nil => have := (h a).1 (by simp); simp at this
      | cons b l' =>
        rw [List.pairwise_cons] at h1 h2
        have hab : a = b := by
          have ha := (h a).1 (by simp)
          have hb := (h b).2 (by simp)
          rw [List.mem_cons] at ha hb
          rcases ha with ha | ha
          · exact ha
          · rcases hb with hb | hb
            · exact hb.symm
            · exact (asymm (h1.1 b hb) (h2.1 a ha)).elim
        subst hab
        rw [ih l' h1.2 h2.2]
        intro x
        constructor
        · intro hx
          have := (h x).1 (by simp [hx])
          rw [List.mem_cons] at this
          rcases this with rfl | h'
          · exact (before_irrefl _ (h1.1 _ hx)).elim
          · exact h'
        · intro hx
          have := (h x).2 (by simp [hx])
          rw [List.mem_cons] at this
          rcases this with rfl | h'
          · exact (before_irrefl _ (h2.1 _ hx)).elim
          · exact h'
  refine key l l' h.2 h'.2 ?_
  rintro ⟨p, n⟩
  rw [h.1, h'.1]

/-- Not vacuous: a visitor that records IDs and stops at "bad". -/
example : Node.walk (fun (s : List Str) _ n => if n.id = c!"bad" then throwErr .noTests else .ok (s ++ [n.id]))
    ⟨c!"r", [], .unset, none, [⟨c!"a", [], .unset, none, [⟨c!"b", [], .unset, none, []⟩]⟩, ⟨c!"c", [], .unset, none, []⟩]⟩ []
    = some (.ok [c!"r", c!"a", c!"b", c!"c"]) ∧
  Node.walk (fun (s : List Str) _ n => if n.id = c!"bad" then throwErr .noTests else .ok (s ++ [n.id]))
    ⟨c!"r", [], .unset, none, [⟨c!"bad", [], .unset, none, []⟩, ⟨c!"c", [], .unset, none, []⟩]⟩ []
    = some (.error (.err .noTests)) := by
  constructor <;> rw [walk_eq] <;> decide +kernel

/-! ### C23 -/

theorem nodeAt_writeTests (w : Path → Option (List Str)) (n : Node) (p q : Path) :
    nodeAt (Node.writeTests w p n) q = (nodeAt n q).map (Node.writeTests w (p ++ q)) := by
  have hall : ∀ (ns : List Node) (p : Path) (i : Nat),
      Node.writeTests.writeAll w p i ns = ns.mapIdx (fun k c => Node.writeTests w (p ++ [i + k]) c) := by
    intro ns
    induction ns with
    | nil => intro p i; simp [Node.writeTests.writeAll]
    | cons n ns ih =>
      intro p i
      simp only [Node.writeTests.writeAll, List.mapIdx_cons, Nat.add_zero, ih]
      simp only [Nat.add_assoc, Nat.add_comm 1]
  induction q generalizing n p with
  | nil => simp [nodeAt]
  | cons i q ih =>
    obtain ⟨id, ts, o, e, ns⟩ := n
    simp only [nodeAt, Node.writeTests, hall]
    simp only [List.getElem?_mapIdx, Nat.zero_add]
    cases hi : ns[i]? with
    | none => simp
    | some c => simp [ih]

/-- MarkAll ends without error; the marked tree has exactly the same pointers, and at each of them the same node but
for the tests, which are exactly the given ones. -/
theorem C23_markAll (root : Node) (tests : List Str) :
    ∃ r, Node.markAll root tests = some (.ok r) ∧
      ∀ p, (nodeAt root p = none ∧ nodeAt r p = none) ∨
        ∃ a b, nodeAt root p = some a ∧ nodeAt r p = some b ∧ b.tests = tests ∧ SameButTests a b := by
  unfold Node.markAll
  rw [walk_eq]
  have hfold : ∀ (l : List (Path × Node)) (w : Path → Option (List Str)),
      ∃ w', l.foldlM (fun (w : Path → Option (List Str)) (pn : Path × Node) =>
          (Except.ok (fun q => if q = pn.1 then some tests else w q) : Res _)) w = .ok w' ∧
        ∀ q, (q ∈ l.map (·.1) → w' q = some tests) ∧ (w q = some tests → w' q = some tests) := by
    intro l
    induction l with
    | nil => intro w; exact ⟨w, rfl, by simp⟩
    | cons pn l ih =>
      intro w
      rw [List.foldlM_cons]
      obtain ⟨w', h1, h2⟩ := ih (fun q => if q = pn.1 then some tests else w q)
      refine ⟨w', h1, fun q => ⟨?_, ?_⟩⟩
      · intro hq
        rw [List.map_cons, List.mem_cons] at hq
        rcases hq with hq | hq
        · exact (h2 q).2 (by simp [hq])
        · exact (h2 q).1 hq
      · intro hq
        exact (h2 q).2 (by simp [hq])
  obtain ⟨w', h1, h2⟩ := hfold (preorder [] root) (fun _ => none)
  refine ⟨Node.writeTests w' [] root, ?_, ?_⟩
  · simp only [h1, Option.map_some, Except.map]
  · intro p
    have hw := nodeAt_writeTests w' root [] p
    cases hp : nodeAt root p with
    | none => left; rw [hp] at hw; exact ⟨rfl, hw⟩
    | some a =>
      right
      rw [hp] at hw
      refine ⟨a, _, rfl, hw, ?_, ?_⟩
      · have : w' p = some tests := (h2 p).1 (List.mem_map.2 ⟨(p, a), mem_preorder.2 ⟨p, by simp, hp⟩, rfl⟩)
        obtain ⟨id, ts, o, e, ns⟩ := a
        simp [Node.writeTests, this]
      · obtain ⟨id, ts, o, e, ns⟩ := a
        refine ⟨rfl, rfl, rfl, ?_⟩
        simp only [Node.writeTests]
        have : ∀ (ns : List Node) q i, (Node.writeTests.writeAll w' q i ns).length = ns.length := by
          intro ns
          induction ns with
          | nil => intros; rfl
          | cons n ns ih => intros; simp [Node.writeTests.writeAll, ih]
        rw [this]

/-- Not vacuous: both nodes of a two-node tree are tagged. -/
example : (Node.markAll ⟨c!"r", [c!"old"], .unset, none, [⟨c!"a", [], .inc, none, []⟩]⟩ [c!"t"]).map
    (fun r => r.map (fun n => (n.tests, n.id, n.next.map (fun c => (c.tests, c.id))))) =
    some (.ok ([c!"t"], c!"r", [([c!"t"], c!"a")])) := by decide +kernel

/-! ### C24 -/

/-- Full validation succeeds exactly on well-formed trees, and then wraps the same tree. -/
theorem C24_full_iff (r : Node) (t : Validate.Test) :
    Validate.full (some r) = some (.ok t) ↔ t = ⟨r⟩ ∧ WellFormed r :=
  full_ok_iff r t

/-- On any other tree it returns an error. -/
theorem C24_full_rejects (r : Node) (h : ¬ WellFormed r) : ∃ e, Validate.full (some r) = some (.error (.err e)) := by
  obtain ⟨h1, h2⟩ := full_not_panic r
  cases hf : Validate.full (some r) with
  | none => exact absurd hf h2
  | some x =>
    cases x with
    | ok t => exact absurd ((full_ok_iff r t).1 hf).2 h
    | error f =>
      cases f with
      | panic => exact absurd hf h1
      | err e => exact ⟨e, rfl⟩

/-- A well-formed tree and an ill-formed one exist. -/
example : WellFormed (Forbidden.expand ⟨[], [⟨⟨c!"a", .in_⟩, .none⟩], ⟨⟨c!"b", .out⟩, .int 1⟩⟩ c!"t") ∧
    ¬ WellFormed (Node.root [Node.fail]) := by
  constructor
  · exact ((full_ok_iff _ ⟨_⟩).1 (show Validate.full (some _) = some (.ok ⟨_⟩) from rfl)).2
  · rintro ⟨⟨_, _, h⟩, _⟩; exact h rfl

/-! ### C25, C26 -/

/-- FullSuite succeeds exactly when every test is present and well-formed, and then holds the same trees under the same
names. -/
theorem C25_fullSuite_iff (s : Validate.Suite) (hs : GoMap.WF s) (v : GoMap Str Validate.Test) :
    Validate.fullSuite s = .ok v ↔
      v.map (fun kv => (kv.1, some kv.2.root)) = s ∧ ∀ k r, (k, some r) ∈ s → WellFormed r := by
  unfold Validate.fullSuite
  rw [tryOver_ok_iff _ s hs]
  constructor
  · rintro ⟨h1, h2⟩
    constructor
    · clear hs
      induction s generalizing v with
      | nil => cases v <;> simp_all
      | cons kr s ih =>
        cases v with
        | nil => simp at h1
        | cons kv v =>
          simp only [List.map_cons, List.cons.injEq] at h1 h2 ⊢
          refine ⟨?_, ih v h1.2 h2.2⟩
          obtain ⟨k, r⟩ := kr
          obtain ⟨k', t⟩ := kv
          simp only at h1 h2 ⊢
          cases r with
          | none => simp [Validate.full] at h2
          | some r =>
            have h3 := h2.1
            cases hf : Validate.full (some r) with
            | none => rw [hf] at h3; simp at h3
            | some x =>
              rw [hf] at h3
              simp only [Option.getD_some] at h3
              rw [h3] at hf
              obtain ⟨rfl, _⟩ := (full_ok_iff r t).1 hf
              rw [h1.1]
    · intro k r hm
      have hmem : (Validate.full (some r)).getD (.error .panic) ∈ v.map (fun kv => (Except.ok kv.2 : Res Validate.Test)) := by
        rw [← h2]; exact List.mem_map.2 ⟨(k, some r), hm, rfl⟩
      obtain ⟨⟨k', t⟩, _, ht⟩ := List.mem_map.1 hmem
      cases hf : Validate.full (some r) with
      | none => rw [hf] at ht; simp at ht
      | some x =>
        rw [hf] at ht
        simp only [Option.getD_some] at ht
        rw [← ht] at hf
        exact ((full_ok_iff r t).1 hf).2
  · rintro ⟨rfl, h⟩
    constructor
    · simp
    · rw [List.map_map]
      apply List.map_congr_left
      rintro ⟨k, t⟩ hm
      simp only [Function.comp]
      have := (full_ok_iff t.root t).2 ⟨rfl, h k t.root (List.mem_map.2 ⟨(k, t), hm, rfl⟩)⟩
      rw [this]; rfl

/-- The outcome does not depend on the order in which the map is visited: success is the same for every order, and the
validated maps are the same maps. -/
theorem C25_order (s s' : Validate.Suite) (hs : GoMap.WF s) (hp : s.Perm s') (v : GoMap Str Validate.Test)
    (h : Validate.fullSuite s = .ok v) : ∃ v', Validate.fullSuite s' = .ok v' ∧ v.Perm v' := by
  have hs' : GoMap.WF s' := (hp.map _).nodup_iff.1 hs
  obtain ⟨h1, h2⟩ := (C25_fullSuite_iff s hs v).1 h
  refine ⟨s'.filterMap (fun kr => kr.2.map (fun r => (kr.1, (⟨r⟩ : Validate.Test)))), ?_, ?_⟩
  · rw [C25_fullSuite_iff s' hs']
    constructor
    · have hall : ∀ kr ∈ s', ∃ r, kr.2 = some r := by
        intro kr hm
        have := hp.mem_iff.2 hm
        rw [← h1] at this
        obtain ⟨kv, _, rfl⟩ := List.mem_map.1 this
        exact ⟨_, rfl⟩
      clear hp hs' hs h1 h2 h
      induction s' with
      | nil => rfl
      | cons kr s' ih =>
        obtain ⟨k, r⟩ := kr
        obtain ⟨r', hr⟩ := hall (k, r) (by simp)
        simp only at hr
        subst hr
        simp only [List.filterMap_cons, Option.map_some, List.map_cons]
        rw [ih fun kr hm => hall kr (by simp [hm])]
    · intro k r hm
      exact h2 k r (hp.mem_iff.2 hm)
  · have : v = s.filterMap (fun kr => kr.2.map (fun r => (kr.1, (⟨r⟩ : Validate.Test)))) := by
      rw [← h1, List.filterMap_map]
      clear h1 h2 h hs hs' hp
      induction v with
      | nil => rfl
      | cons kv v ih => simp [← ih]
    rw [this]
    exact hp.filterMap _

example : Validate.fullSuite [(c!"t", some (Forbidden.expand ⟨[], [], ⟨⟨c!"b", .out⟩, .int 1⟩⟩ c!"t"))] =
    .ok [(c!"t", ⟨Forbidden.expand ⟨[], [], ⟨⟨c!"b", .out⟩, .int 1⟩⟩ c!"t"⟩)] := rfl

/-- Validation of a suite without null tests never crashes.  Partial: the full claim, over every suite that JSON can
give, is false (next theorem). -/
theorem C26_no_crash_partial (s : Validate.Suite) (hs : GoMap.WF s) (h : ∀ k, (k, none) ∉ s) :
    Validate.fullSuite s ≠ .error .panic := by
  unfold Validate.fullSuite
  rw [tryOver_eq _ s hs]
  have : ∀ kv ∈ s, (((Validate.full kv.2).getD (.error .panic)).map (fun v => (kv.1, v))) ≠ .error .panic := by
    rintro ⟨k, r⟩ hm
    cases r with
    | none => exact absurd hm (h k)
    | some r =>
      obtain ⟨h1, h2⟩ := full_not_panic r
      cases hf : Validate.full (some r) with
      | none => exact absurd hf h2
      | some x =>
        cases x with
        | ok t => simp [Except.map]
        | error f =>
          simp only [Option.getD_some, Except.map, ne_eq, Except.error.injEq]
          rintro rfl
          exact h1 hf
  clear h hs
  induction s with
  | nil => simp [pure, Except.pure]
  | cons kv s ih =>
    rw [List.mapM_cons]
    have h1 := this kv (by simp)
    have h2 := ih fun kv hm => this kv (by simp [hm])
    simp only [bind, Except.bind]
    cases hx : ((Validate.full kv.2).getD (.error .panic)).map (fun v => (kv.1, v)) with
    | error f => rw [hx] at h1; simpa using h1
    | ok x =>
      simp only
      cases hy : List.mapM (fun kv : Str × Option Node => ((Validate.full kv.2).getD (.error .panic)).map (fun v => (kv.1, v))) s with
      | error f => rw [hy] at h2; simpa using h2
      | ok y => simp [pure, Except.pure]

/-- The full claim is false: a suite with a null test crashes as soon as the other tests are fine, in every order. -/
theorem C26_null_test_crashes (s : Validate.Suite) (hs : GoMap.WF s) (k : Str) (hk : (k, none) ∈ s)
    (hok : ∀ k r, (k, some r) ∈ s → WellFormed r) : Validate.fullSuite s = .error .panic := by
  unfold Validate.fullSuite
  rw [tryOver_eq _ s hs]
  clear hs
  induction s with
  | nil => simp at hk
  | cons kv s ih =>
    obtain ⟨k', r⟩ := kv
    rw [List.mapM_cons]
    simp only [bind, Except.bind]
    cases r with
    | none => rfl
    | some r =>
      have := (full_ok_iff r ⟨r⟩).2 ⟨rfl, hok k' r (by simp)⟩
      simp only [this, Option.getD_some]
      have e : (Except.map (fun v => (k', v)) (Except.ok (⟨r⟩ : Validate.Test) : Res Validate.Test)) = .ok (k', ⟨r⟩) := rfl
      simp only [e]
      rw [ih (by simpa using hk) fun k r hm => hok k r (by simp [hm])]

example : Validate.fullSuite [(c!"t", none)] = .error .panic := rfl

/-! ### C41 -/

/-- Operations on a stack. -/
inductive StackOp (α : Type) where
  | push (x : α)
  | pop
  | clear
  | isEmpty

/-- What an operation reports. -/
inductive StackObs (α : Type) where
  | done
  | popped (x : α)
  | empty (b : Bool)
  | panic

namespace StackOp

/-- Running operations on the implementation. -/
def run {α : Type} (s : Stack α) : List (StackOp α) → List (StackObs α)
  | [] => []
  | .push x :: ops => .done :: run (s.push x) ops
  | .pop :: ops =>
    match s.pop with
    | .error _ => [.panic]
    | .ok (x, s') => .popped x :: run s' ops
  | .clear :: ops => .done :: run s.clear ops
  | .isEmpty :: ops => .empty s.isEmpty :: run s ops

/-- Running them on the specification: a list with the newest element first; only popping an empty stack panics. -/
def runSpec {α : Type} (l : List α) : List (StackOp α) → List (StackObs α)
  | [] => []
  | .push x :: ops => .done :: runSpec (x :: l) ops
  | .pop :: ops =>
    match l with
    | [] => [.panic]
    | x :: l' => .popped x :: runSpec l' ops
  | .clear :: ops => .done :: runSpec [] ops
  | .isEmpty :: ops => .empty (l = [] : Bool) :: runSpec l ops

end StackOp

/-- Any sequence of operations on a fresh stack behaves as a last-in-first-out list. -/
theorem C41_stack {α : Type} [DecidableEq α] (ops : List (StackOp α)) :
    StackOp.run Stack.empty ops = StackOp.runSpec [] ops := by
  have key : ∀ (l : List α), StackOp.run ⟨l, l.length⟩ ops = StackOp.runSpec l.reverse ops := by
    induction ops with
    | nil => intro l; rfl
    | cons op ops ih =>
      intro l
      cases op with
      | push x =>
        simp only [StackOp.run, StackOp.runSpec]
        have : Stack.push ⟨l, l.length⟩ x = ⟨l ++ [x], (l ++ [x]).length⟩ := by simp [Stack.push]
        rw [this, ih]; simp
      | pop =>
        simp only [StackOp.run, StackOp.runSpec]
        rcases List.eq_nil_or_concat l with rfl | ⟨l', x, rfl⟩
        · simp [Stack.pop]
        · rw [List.concat_eq_append, Stack.pop_concat]
          simp [ih]
      | clear =>
        simp only [StackOp.run, StackOp.runSpec]
        have := ih []
        simp only [List.length_nil, List.reverse_nil] at this
        rw [← this]; rfl
      | isEmpty =>
        simp only [StackOp.run, StackOp.runSpec, ih]
        cases l <;> simp [Stack.isEmpty]
  exact key []

/-- Not vacuous: push, push, pop, pop, pop. -/
example : StackOp.run (Stack.empty (α := Nat)) [.push 1, .push 2, .pop, .isEmpty, .pop, .isEmpty, .pop] =
    [.done, .done, .popped 2, .empty false, .popped 1, .empty true, .panic] := rfl

theorem goSet_add_facts {α : Type} [DecidableEq α] (s : GoSet α) (hs : GoMap.WF s) (ht : ∀ p ∈ s, p.2 = true) (vs : List α) :
    GoMap.WF (GoSet.add s vs) ∧ (∀ p ∈ GoSet.add s vs, p.2 = true) ∧
      ∀ x, x ∈ (GoSet.add s vs).map (·.1) ↔ x ∈ s.map (·.1) ∨ x ∈ vs := by
  induction vs generalizing s with
  | nil => exact ⟨hs, ht, by simp [GoSet.add]⟩
  | cons v vs ih =>
    have hs1 : GoMap.WF (GoMap.set s v true) := GoMap.wf_set hs v true
    have ht1 : ∀ p ∈ GoMap.set s v true, p.2 = true := by
      rintro ⟨k, b⟩ hp
      have := GoMap.get?_of_mem hs1 hp
      rw [GoMap.get?_set] at this
      split at this
      · simpa using this.symm
      · exact ht _ (GoMap.mem_of_get? this)
    obtain ⟨h1, h2, h3⟩ := ih (GoMap.set s v true) hs1 ht1
    refine ⟨h1, h2, fun x => ?_⟩
    have e : GoSet.add s (v :: vs) = GoSet.add (GoMap.set s v true) vs := rfl
    rw [e, h3]
    have hk : x ∈ (GoMap.set s v true).map (·.1) ↔ x = v ∨ x ∈ s.map (·.1) := by
      have a1 := GoMap.get?_eq_none_iff (m := GoMap.set s v true) (k := x)
      have a2 := GoMap.get?_eq_none_iff (m := s) (k := x)
      rw [GoMap.get?_set] at a1
      unfold GoMap.keys at a1 a2
      by_cases hx : v = x
      · subst hx
        rw [if_pos rfl] at a1
        refine ⟨fun _ => Or.inl rfl, fun _ => ?_⟩
        by_contra hc
        exact absurd (a1.2 hc) (by simp)
      · rw [if_neg hx] at a1
        rw [a2] at a1
        have : x ≠ v := fun e => hx e.symm
        simp only [this, false_or]
        exact (not_iff_not.1 a1).symm
    rw [hk, List.mem_cons]; tauto

theorem goSet_values_eq {α : Type} (s : GoSet α) (ht : ∀ p ∈ s, p.2 = true) : GoSet.values s = s.map (·.1) := by
  unfold GoSet.values
  rw [List.filter_eq_self.2 (fun p hp => ht p hp)]

/-- A set built by adding batches of values lists each added value exactly once, and nothing else — in whatever order
the underlying map is visited. -/
theorem C41_set {α : Type} [DecidableEq α] (batches : List (List α)) (order : GoSet α)
    (hp : (batches.foldl GoSet.add []).Perm order) :
    (GoSet.values order).Nodup ∧ ∀ x, x ∈ GoSet.values order ↔ ∃ b ∈ batches, x ∈ b := by
  have key : ∀ (batches : List (List α)) (s : GoSet α), GoMap.WF s → (∀ p ∈ s, p.2 = true) →
      GoMap.WF (batches.foldl GoSet.add s) ∧ (∀ p ∈ batches.foldl GoSet.add s, p.2 = true) ∧
        ∀ x, x ∈ (batches.foldl GoSet.add s).map (·.1) ↔ x ∈ s.map (·.1) ∨ ∃ b ∈ batches, x ∈ b := by
    intro batches
    induction batches with
    | nil => intro s h1 h2; exact ⟨h1, h2, by simp⟩
    | cons b bs ih =>
      intro s h1 h2
      obtain ⟨a1, a2, a3⟩ := goSet_add_facts s h1 h2 b
      obtain ⟨b1, b2, b3⟩ := ih _ a1 a2
      refine ⟨b1, b2, fun x => ?_⟩
      rw [List.foldl_cons, b3, a3]
      simp [or_assoc]
  obtain ⟨h1, h2, h3⟩ := key batches [] (by simp [GoMap.WF]) (by simp)
  rw [goSet_values_eq order fun p hp' => h2 p (hp.mem_iff.2 hp')]
  refine ⟨(hp.map _).nodup_iff.1 h1, fun x => ?_⟩
  rw [← (hp.map _).mem_iff, h3]; simp

example : GoSet.values (GoSet.add (GoSet.new [1, 2]) [2, 3]) = [1, 2, 3] := by decide

end Rtcg
