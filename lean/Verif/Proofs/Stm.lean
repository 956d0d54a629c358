import Verif.Model.Stm
import Verif.Proofs.Tree
import Mathlib.Data.List.Basic

namespace Rtcg

open Spec

/-! ### the order of the builder's visits -/

/-- The non-failing nodes in the order the builder visits them. -/
def visit (p : Path) : Node → List (Path × Node)
  | ⟨id, tests, outcome, event, next⟩ =>
    if outcome = .fail then [] else (p, ⟨id, tests, outcome, event, next⟩) :: go p 0 next
where
  go (p : Path) : Nat → List Node → List (Path × Node)
  | _, [] => []
  | i, n :: ns => go p (i + 1) ns ++ visit (p ++ [i]) n

theorem visit_go_eq (p : Path) (i : Nat) (ns : List Node) :
    visit.go p i ns = (ns.mapIdx (fun k c => (p ++ [i + k], c))).reverse.flatMap (fun pn => visit pn.1 pn.2) := by
  induction ns generalizing i with
  | nil => simp [visit.go]
  | cons n ns ih =>
    simp only [visit.go, List.mapIdx_cons, List.reverse_cons, List.flatMap_append, Nat.add_zero, List.flatMap_cons, List.flatMap_nil,
      List.append_nil]
    rw [ih]
    congr 4
    funext k c
    rw [Nat.add_right_comm, Nat.add_assoc]

theorem visit_eq (p : Path) (n : Node) :
    visit p n = if n.outcome = .fail then [] else
      (p, n) :: (n.children p).reverse.flatMap (fun pn => visit pn.1 pn.2) := by
  obtain ⟨i, t, o, e, ns⟩ := n
  rw [visit, visit_go_eq]
  simp [Node.children]

theorem visit_subset {p : Path} {n : Node} {x : Path × Node} (h : x ∈ visit p n) :
    x ∈ preorder p n ∧ x.2.outcome ≠ .fail := by
  induction n using Node.ind generalizing p x with
  | h n ih =>
    rw [visit_eq] at h
    split at h
    · simp at h
    · rename_i ho
      rw [preorder_eq]
      rcases List.mem_cons.1 h with rfl | h
      · exact ⟨by simp, ho⟩
      · rw [List.mem_flatMap] at h
        obtain ⟨⟨q, c⟩, hc, hx⟩ := h
        rw [List.mem_reverse] at hc
        obtain ⟨i, hq, hi⟩ := mem_children.1 hc
        have := ih c (List.mem_of_getElem? hi) hx
        refine ⟨List.mem_cons_of_mem _ (List.mem_flatMap.2 ⟨(q, c), hc, this.1⟩), this.2⟩

/-- When failing nodes are leaves, exactly the non-failing nodes are visited. -/
theorem mem_visit {p : Path} {n : Node} (hleaf : ∀ r m, nodeAt n r = some m → m.outcome = .fail → m.next = [])
    {x : Path × Node} : x ∈ visit p n ↔ x ∈ preorder p n ∧ x.2.outcome ≠ .fail := by
  refine ⟨visit_subset, ?_⟩
  rintro ⟨h, ho⟩
  induction n using Node.ind generalizing p x with
  | h n ih =>
    rw [visit_eq]
    rw [preorder_eq] at h
    split
    · rename_i hf
      have := hleaf [] n rfl hf
      rcases List.mem_cons.1 h with rfl | h
      · exact absurd hf ho
      · simp [Node.children, this] at h
    · rcases List.mem_cons.1 h with rfl | h
      · simp
      · rw [List.mem_flatMap] at h
        obtain ⟨⟨q, c⟩, hc, hx⟩ := h
        obtain ⟨i, hq, hi⟩ := mem_children.1 hc
        refine List.mem_cons_of_mem _ (List.mem_flatMap.2 ⟨(q, c), List.mem_reverse.2 hc, ?_⟩)
        exact ih c (List.mem_of_getElem? hi) (fun r m hm => hleaf (i :: r) m (by simp [nodeAt, hi, hm])) hx ho

theorem visit_prefix {p : Path} {n : Node} {x : Path × Node} (h : x ∈ visit p n) : p <+: x.1 := by
  obtain ⟨r, hr, _⟩ := mem_preorder.1 (show (x.1, x.2) ∈ preorder p n from (visit_subset h).1)
  exact ⟨r, hr.symm⟩

/-- No later visit is to an ancestor-or-self of an earlier one. -/
theorem visit_pairwise (p : Path) (n : Node) : (visit p n).Pairwise (fun a b => ¬ b.1 <+: a.1) := by
  induction n using Node.ind generalizing p with
  | h n ih =>
    rw [visit_eq]
    split
    · simp
    · rw [List.pairwise_cons]
      constructor
      · intro b hb
        rw [List.mem_flatMap] at hb
        obtain ⟨⟨q, c⟩, hc, hb⟩ := hb
        rw [List.mem_reverse] at hc
        obtain ⟨i, rfl, hi⟩ := mem_children.1 hc
        have := visit_prefix hb
        intro hp
        have := List.IsPrefix.length_le (this.trans hp)
        simp at this
        exact absurd this (by omega)
      · rw [List.pairwise_flatMap]
        constructor
        · rintro ⟨q, c⟩ hc
          rw [List.mem_reverse] at hc
          obtain ⟨i, rfl, hi⟩ := mem_children.1 hc
          exact ih c (List.mem_of_getElem? hi) _
        · rw [List.pairwise_reverse, Node.children, List.pairwise_iff_getElem]
          intro i j hi hj hij a ha b hb hp
          simp only [List.getElem_mapIdx] at ha hb
          have h1 := visit_prefix ha
          have h2 := visit_prefix hb
          have h3 := h2.trans hp
          have := List.prefix_of_prefix_length_le h1 h3 (by simp)
          obtain ⟨t, ht⟩ := this
          simp at ht
          omega

/-! ### the stack loop is a fold over the visits -/

/-- The part of the builder that is not the stack. -/
structure Core where
  nodeNum : Nat
  stm : Stm
  ids : Path → Option Str

namespace Core
def of (b : Builder) : Core := ⟨b.nodeNum, b.stm, b.ids⟩
def with_ (c : Core) (st : Stack (Path × Node)) : Builder := ⟨c.nodeNum, st, c.stm, c.ids⟩
/-- What processing a visited node does, apart from the stack. -/
def proc (c : Core) (pn : Path × Node) : Res Core :=
  match (c.with_ Stack.empty).buildState pn.1 pn.2 with
  | .error e => .error e
  | .ok (b, sn) =>
    let b := { b with stm := { b.stm with states := b.stm.states ++ [sn] } }
    match b.inferNodeEventType pn.2 with
    | .error e => .error e
    | .ok b => .ok (of b)
end Core

theorem ensureNodeID_stack (b : Builder) (st : Stack (Path × Node)) (p : Path) (n : Node) :
    Builder.ensureNodeID { b with stack := st } p n = { Builder.ensureNodeID b p n with stack := st } := by
  unfold Builder.ensureNodeID Builder.idOf Builder.setID
  simp only
  split <;> rfl

theorem buildStateStep_stack (b : Builder) (s : State) (st : Stack (Path × Node)) (np : Path × Node) :
    Builder.buildStateStep ({ b with stack := st }, s) np =
      (Builder.buildStateStep (b, s) np).map (fun bs => ({ bs.1 with stack := st }, bs.2)) := by
  unfold Builder.buildStateStep
  simp only [ensureNodeID_stack, Builder.idOf]
  cases State.addOutgoingNode s _ np.2 <;> rfl

theorem buildState_stack (b : Builder) (st : Stack (Path × Node)) (p : Path) (n : Node) :
    Builder.buildState { b with stack := st } p n =
      (Builder.buildState b p n).map (fun bs => ({ bs.1 with stack := st }, bs.2)) := by
  unfold Builder.buildState
  have key : ∀ (l : List (Path × Node)) (b : Builder) (s : State),
      l.foldlM Builder.buildStateStep ({ b with stack := st }, s) =
        (l.foldlM Builder.buildStateStep (b, s)).map (fun bs => ({ bs.1 with stack := st }, bs.2)) := by
    intro l
    induction l with
    | nil => intro b s; rfl
    | cons np l ih =>
      intro b s
      rw [List.foldlM_cons, List.foldlM_cons, buildStateStep_stack]
      cases h : Builder.buildStateStep (b, s) np with
      | error e => rfl
      | ok bs =>
        obtain ⟨b', s'⟩ := bs
        exact ih b' s'
  exact key _ b _

theorem processNode_eq (c : Core) (st : Stack (Path × Node)) (p : Path) (n : Node) :
    Builder.processNode (c.with_ st) p n =
      if n.outcome = .fail then .ok (c.with_ st)
      else (c.proc (p, n)).map (fun c => c.with_ ((n.children p).foldl Stack.push st)) := by
  unfold Builder.processNode Core.proc
  split
  · rfl
  · have : c.with_ st = { c.with_ Stack.empty with stack := st } := rfl
    rw [this, buildState_stack]
    cases h : (c.with_ Stack.empty).buildState p n with
    | error e => rfl
    | ok bs =>
      obtain ⟨b, sn⟩ := bs
      simp only [Except.map]
      unfold Builder.inferNodeEventType
      cases he : n.event with
      | none => rfl
      | some e =>
        simp only [Builder.inferEventType]
        cases hu : RsType.unify (TypeMap.at_ b.stm.types e.channel.name) (some e.value.type) <;> rfl

theorem buildLoop_eq (fuel : Nat) (todo : List (Path × Node)) (c : Core)
    (h : (todo.map (fun pn => pn.2.size)).sum < fuel) :
    Builder.buildLoop fuel (c.with_ ⟨todo.reverse, todo.reverse.length⟩) =
      some (((todo.flatMap (fun pn => visit pn.1 pn.2)).foldlM Core.proc c).map (fun c => c.with_ Stack.empty)) := by
  induction fuel generalizing todo c with
  | zero => omega
  | succ fuel ih =>
    cases todo with
    | nil => rfl
    | cons pn todo =>
      obtain ⟨p, n⟩ := pn
      have hpop : Stack.pop (c.with_ ⟨((p, n) :: todo).reverse, ((p, n) :: todo).reverse.length⟩).stack =
          .ok ((p, n), ⟨todo.reverse, todo.reverse.length⟩) := by
        rw [List.reverse_cons]; exact Stack.pop_concat _ _
      have hne : (c.with_ ⟨((p, n) :: todo).reverse, ((p, n) :: todo).reverse.length⟩).stack.isEmpty = false := by
        simp [Stack.isEmpty, Core.with_]
      simp only [Builder.buildLoop, hne, hpop]
      have hw : { c.with_ ⟨((p, n) :: todo).reverse, ((p, n) :: todo).reverse.length⟩ with
          stack := ⟨todo.reverse, todo.reverse.length⟩ } = c.with_ ⟨todo.reverse, todo.reverse.length⟩ := rfl
      rw [hw, processNode_eq]
      simp only [List.map_cons, List.sum_cons] at h
      rw [List.flatMap_cons, visit_eq]
      by_cases hf : n.outcome = .fail
      · simp only [hf, if_true, List.nil_append]
        have := Node.size_pos n
        exact ih todo c (by omega)
      · simp only [hf, if_false]
        rw [List.cons_append, List.foldlM_cons]
        cases hp : c.proc (p, n) with
        | error e => rfl
        | ok c' =>
          simp only [Except.map]
          rw [Stack.push_items]
          have : todo.reverse ++ n.children p = ((n.children p).reverse ++ todo).reverse := by simp
          rw [this]
          have hs : ((n.children p).map (fun pn => pn.2.size)).sum = (n.next.map Node.size).sum := by
            congr 1
            unfold Node.children
            apply List.ext_getElem <;> simp
          have := ih ((n.children p).reverse ++ todo) c' (by
            rw [List.map_append, List.sum_append, List.map_reverse, List.sum_reverse, hs]
            rw [Node.size_eq] at h; omega)
          rw [List.flatMap_append] at this
          exact this

/-! ### labels -/

/-- ensureNodeID on the counter and the ID fields alone. -/
def labelStep (l : Nat × (Path → Option Str)) (pn : Path × Node) : Nat × (Path → Option Str) :=
  if (l.2 pn.1).getD pn.2.id ≠ [] then l
  else (l.1 + 1, fun q => if q = pn.1 then some (c!"step" ++ decNat l.1) else l.2 q)

def labels (l : Nat × (Path → Option Str)) (K : List (Path × Node)) : Nat × (Path → Option Str) := K.foldl labelStep l

theorem labels_cons (l : Nat × (Path → Option Str)) (x : Path × Node) (K : List (Path × Node)) :
    labels l (x :: K) = labels (labelStep l x) K := rfl

theorem labels_append (l : Nat × (Path → Option Str)) (K K' : List (Path × Node)) :
    labels l (K ++ K') = labels (labels l K) K' := by unfold labels; rw [List.foldl_append]

theorem labelStep_other (l : Nat × (Path → Option Str)) (x : Path × Node) {q : Path} (h : q ≠ x.1) :
    (labelStep l x).2 q = l.2 q := by
  unfold labelStep
  split
  · rfl
  · simp [h]

theorem labels_other (l : Nat × (Path → Option Str)) (K : List (Path × Node)) {q : Path} (h : q ∉ K.map (·.1)) :
    (labels l K).2 q = l.2 q := by
  induction K generalizing l with
  | nil => rfl
  | cons x K ih =>
    simp only [List.map_cons, List.mem_cons, not_or] at h
    rw [labels_cons, ih _ h.2, labelStep_other _ _ h.1]

theorem labelStep_self_ne (l : Nat × (Path → Option Str)) (x : Path × Node) :
    ((labelStep l x).2 x.1).getD x.2.id ≠ [] := by
  unfold labelStep
  split
  · assumption
  · simp

/-- The label of a node: what it had, or a step number. -/
theorem labelStep_mono (l : Nat × (Path → Option Str)) (x : Path × Node) {q : Path} {i : Str}
    (h : (l.2 q).getD i ≠ []) : ((labelStep l x).2 q).getD i = (l.2 q).getD i ∨ q = x.1 := by
  by_cases hq : q = x.1
  · exact Or.inr hq
  · rw [labelStep_other _ _ hq]; exact Or.inl rfl

theorem labels_ne (l : Nat × (Path → Option Str)) (K : List (Path × Node)) (hk : (K.map (·.1)).Nodup)
    {x : Path × Node} (hx : x ∈ K) : ((labels l K).2 x.1).getD x.2.id ≠ [] := by
  induction K generalizing l with
  | nil => simp at hx
  | cons y K ih =>
    rw [List.map_cons, List.nodup_cons] at hk
    rw [labels_cons]
    rcases List.mem_cons.1 hx with rfl | hx
    · rw [labels_other _ _ hk.1]; exact labelStep_self_ne _ _
    · exact ih _ hk.2 hx

/-- Nodes with an ID keep it. -/
theorem labels_keep (l : Nat × (Path → Option Str)) (K : List (Path × Node)) (hk : (K.map (·.1)).Nodup)
    {x : Path × Node} (hx : x ∈ K) (h : (l.2 x.1).getD x.2.id ≠ []) : (labels l K).2 x.1 = l.2 x.1 := by
  induction K generalizing l with
  | nil => simp at hx
  | cons y K ih =>
    rw [List.map_cons, List.nodup_cons] at hk
    rw [labels_cons]
    rcases List.mem_cons.1 hx with rfl | hx
    · rw [labels_other _ _ hk.1]
      unfold labelStep
      rw [if_pos h]
    · have hne : x.1 ≠ y.1 := by
        intro he; exact hk.1 (he ▸ List.mem_map_of_mem hx)
      rw [ih _ hk.2 hx (by rw [labelStep_other _ _ hne]; exact h), labelStep_other _ _ hne]

/-- All-labelled: nothing changes. -/
theorem labels_noop (l : Nat × (Path → Option Str)) (K : List (Path × Node))
    (h : ∀ x ∈ K, (l.2 x.1).getD x.2.id ≠ []) : labels l K = l := by
  induction K with
  | nil => rfl
  | cons y K ih =>
    rw [labels_cons]
    have : labelStep l y = l := by unfold labelStep; rw [if_pos (h y (by simp))]
    rw [this]
    exact ih fun x hx => h x (by simp [hx])

/-- Blank nodes get consecutive numbers. -/
theorem labels_blank (l : Nat × (Path → Option Str)) (K : List (Path × Node)) (hk : (K.map (·.1)).Nodup)
    (hb : ∀ x ∈ K, (l.2 x.1).getD x.2.id = []) :
    (labels l K).1 = l.1 + K.length ∧
    ∀ k (h : k < K.length), (labels l K).2 (K[k].1) = some (c!"step" ++ decNat (l.1 + k)) := by
  induction K generalizing l with
  | nil => exact ⟨rfl, by simp⟩
  | cons y K ih =>
    rw [List.map_cons, List.nodup_cons] at hk
    have hy := hb y (by simp)
    have hstep : labelStep l y = (l.1 + 1, fun q => if q = y.1 then some (c!"step" ++ decNat l.1) else l.2 q) := by
      unfold labelStep; rw [if_neg (by simp [hy])]
    have hb' : ∀ x ∈ K, ((labelStep l y).2 x.1).getD x.2.id = [] := by
      intro x hx
      have hne : x.1 ≠ y.1 := by
        intro he; exact hk.1 (he ▸ List.mem_map_of_mem hx)
      rw [labelStep_other _ _ hne]; exact hb x (by simp [hx])
    obtain ⟨h1, h2⟩ := ih _ hk.2 hb'
    rw [labels_cons]
    refine ⟨by rw [h1, hstep]; simp; omega, ?_⟩
    intro k hk'
    cases k with
    | zero =>
      simp only [List.getElem_cons_zero]
      rw [labels_other _ _ hk.1, hstep]
      simp
    | succ k =>
      simp only [List.getElem_cons_succ]
      rw [h2 k (by simpa using hk'), hstep]
      congr 3; simp; omega

/-! ### states -/

/-- Adding a continuation, when that cannot panic. -/
def outgoing (s : State) (id : Str) (n : Node) : State :=
  let s := s.addVerdictsFromNode n.outcome n.tests
  if n.outcome = .fail then s
  else match n.event with
    | none => s
    | some e => { s with transitionSets := addToSets s.transitionSets e.channel ⟨e.value, id⟩ }

/-- A child the builder can handle. -/
def ChildOK (n : Node) : Prop := n.outcome ≠ .fail → ∃ e, n.event = some e

theorem addOutgoingNode_ok (s : State) (id : Str) (n : Node) (hid : id ≠ []) (hn : ChildOK n) :
    s.addOutgoingNode id n = .ok (outgoing s id n) := by
  unfold State.addOutgoingNode State.addTransitionToNode outgoing
  by_cases hf : n.outcome = .fail
  · simp [hf]
  · obtain ⟨e, he⟩ := hn hf
    simp [hf, hid, he]

def lab (b : Builder) : Nat × (Path → Option Str) := (b.nodeNum, b.ids)

theorem ensureNodeID_eq (b : Builder) (p : Path) (n : Node) :
    b.ensureNodeID p n = { b with nodeNum := (labelStep (lab b) (p, n)).1, ids := (labelStep (lab b) (p, n)).2 } := by
  unfold Builder.ensureNodeID labelStep Builder.idOf lab Builder.setID
  simp only
  split <;> rfl

theorem buildState_fold (K : List (Path × Node)) (hk : (K.map (·.1)).Nodup) (hok : ∀ x ∈ K, ChildOK x.2)
    (b : Builder) (s : State) :
    K.foldlM Builder.buildStateStep (b, s) =
      .ok ({ b with nodeNum := (labels (lab b) K).1, ids := (labels (lab b) K).2,
                    stm := { b.stm with tests := GoSet.add b.stm.tests (K.flatMap (fun x => x.2.tests)) } },
           K.foldl (fun s x => outgoing s (((labels (lab b) K).2 x.1).getD x.2.id) x.2) s) := by
  induction K generalizing b s with
  | nil => rfl
  | cons x K ih =>
    rw [List.map_cons, List.nodup_cons] at hk
    rw [List.foldlM_cons]
    have hid : ((labelStep (lab b) x).2 x.1).getD x.2.id ≠ [] := labelStep_self_ne _ _
    have hstep : Builder.buildStateStep (b, s) x =
        .ok ({ b with nodeNum := (labelStep (lab b) x).1, ids := (labelStep (lab b) x).2,
                      stm := { b.stm with tests := GoSet.add b.stm.tests x.2.tests } },
             outgoing s (((labelStep (lab b) x).2 x.1).getD x.2.id) x.2) := by
      unfold Builder.buildStateStep
      simp only [ensureNodeID_eq, Builder.idOf]
      rw [addOutgoingNode_ok _ _ _ hid (hok x (by simp))]
    rw [hstep]
    have := ih hk.2 (fun y hy => hok y (by simp [hy]))
      { b with nodeNum := (labelStep (lab b) x).1, ids := (labelStep (lab b) x).2,
               stm := { b.stm with tests := GoSet.add b.stm.tests x.2.tests } }
      (outgoing s (((labelStep (lab b) x).2 x.1).getD x.2.id) x.2)
    refine Eq.trans this ?_
    simp only [lab, labels_cons, List.foldl_cons, List.flatMap_cons]
    rw [labels_other _ K hk.1]
    simp only [GoSet.add, List.foldl_append]

/-- The state of a labelled node. -/
def pureState (n : Node) : State := n.next.foldl (fun s c => outgoing s c.id c) (State.new n.id)

/-- The type inference step for a node. -/
def typeStep (t : TypeMap) (n : Node) : Res TypeMap :=
  match n.event with
  | none => .ok t
  | some e =>
    match RsType.unify (t.at_ e.channel.name) (some e.value.type) with
    | .error e => .error e
    | .ok u => .ok (GoMap.set t e.channel.name u)

theorem Node.children_paths_nodup (p : Path) (n : Node) : ((n.children p).map (·.1)).Nodup := by
  unfold Node.children
  rw [List.Nodup, List.pairwise_map, List.pairwise_iff_getElem]
  intro i j hi hj hij
  simp
  omega

theorem writeIds_writeAll_eq (ids : Path → Option Str) (p : Path) (i : Nat) (ns : List Node) :
    Builder.writeIds.writeAll ids p i ns = ns.mapIdx (fun k c => Builder.writeIds ids (p ++ [i + k]) c) := by
  induction ns generalizing i with
  | nil => simp [Builder.writeIds.writeAll]
  | cons n ns ih =>
    simp only [Builder.writeIds.writeAll, List.mapIdx_cons, Nat.add_zero]
    rw [ih]
    congr 2
    funext k c
    rw [Nat.add_right_comm, Nat.add_assoc]

theorem writeIds_eq (ids : Path → Option Str) (p : Path) (n : Node) :
    Builder.writeIds ids p n = ⟨(ids p).getD n.id, n.tests, n.outcome, n.event,
      n.next.mapIdx (fun k c => Builder.writeIds ids (p ++ [k]) c)⟩ := by
  obtain ⟨i, t, o, e, ns⟩ := n
  rw [Builder.writeIds, writeIds_writeAll_eq]
  simp

theorem pureState_writeIds (ids : Path → Option Str) (p : Path) (n : Node) :
    pureState (Builder.writeIds ids p n) =
      (n.children p).foldl (fun s x => outgoing s ((ids x.1).getD x.2.id) x.2) (State.new ((ids p).getD n.id)) := by
  rw [writeIds_eq]
  unfold pureState Node.children
  simp only
  have key : ∀ (ns : List Node) (p : Path) (i : Nat) (s : State),
      (ns.mapIdx (fun k c => Builder.writeIds ids (p ++ [i + k]) c)).foldl (fun s c => outgoing s c.id c) s =
      (ns.mapIdx (fun k c => (p ++ [i + k], c))).foldl (fun s x => outgoing s ((ids x.1).getD x.2.id) x.2) s := by
    intro ns
    induction ns with
    | nil => intro p i s; simp
    | cons n ns ih =>
      intro p i s
      simp only [List.mapIdx_cons, List.foldl_cons, Nat.add_zero]
      have h1 : outgoing s (Builder.writeIds ids (p ++ [i]) n).id (Builder.writeIds ids (p ++ [i]) n) =
          outgoing s ((ids (p ++ [i])).getD n.id) n := by
        rw [writeIds_eq]; rfl
      rw [h1]
      have := ih p (i + 1) (outgoing s ((ids (p ++ [i])).getD n.id) n)
      have e : ∀ k, i + 1 + k = i + (k + 1) := fun k => by omega
      simp only [e] at this
      exact this
  have := key n.next p 0 (State.new ((ids p).getD n.id))
  simpa using this

/-- All the children of the visited nodes, in the order they get their IDs. -/
def kids (V : List (Path × Node)) : List (Path × Node) := V.flatMap (fun pn => pn.2.children pn.1)

/-- The whole fold, in closed form. -/
theorem proc_fold (V : List (Path × Node)) (hp : V.Pairwise (fun a b => ¬ b.1 <+: a.1))
    (hok : ∀ x ∈ kids V, ChildOK x.2) (c : Core) :
    V.foldlM Core.proc c =
      (V.foldlM (fun t pn => typeStep t pn.2) c.stm.types).map (fun ty =>
        { nodeNum := (labels (c.nodeNum, c.ids) (kids V)).1
          ids := (labels (c.nodeNum, c.ids) (kids V)).2
          stm := { states := c.stm.states ++ V.map (fun pn => pureState (Builder.writeIds (labels (c.nodeNum, c.ids) (kids V)).2 pn.1 pn.2))
                   types := ty
                   tests := GoSet.add c.stm.tests ((kids V).flatMap (fun x => x.2.tests)) } }) := by
  induction V generalizing c with
  | nil => simp [kids, labels, Except.map, pure, Except.pure, GoSet.add]
  | cons pn V ih =>
    obtain ⟨p, n⟩ := pn
    rw [List.pairwise_cons] at hp
    have hkids : kids ((p, n) :: V) = n.children p ++ kids V := by simp [kids]
    rw [hkids] at hok ⊢
    rw [List.foldlM_cons, List.foldlM_cons]
    -- paths labelled later are different from p and its children
    have hlater : ∀ q, (q = p ∨ ∃ i, q = p ++ [i]) → q ∉ (kids V).map (·.1) := by
      intro q hq hm
      obtain ⟨x, hx, rfl⟩ := List.mem_map.1 hm
      rw [kids, List.mem_flatMap] at hx
      obtain ⟨b, hb, hx⟩ := hx
      obtain ⟨j, hj, _⟩ := mem_children.1 (show (x.1, x.2) ∈ b.2.children b.1 from hx)
      have := hp.1 b hb
      rcases hq with hq | ⟨i, hq⟩
      · rw [hj] at hq
        exact this ⟨[j], hq⟩
      · rw [hj] at hq
        have := List.append_inj_left' hq rfl
        exact hp.1 b hb (by rw [this]; exact List.prefix_rfl)
    have hbs : (c.with_ Stack.empty).buildState p n = .ok
        ({ c.with_ Stack.empty with
            nodeNum := (labels (c.nodeNum, c.ids) (n.children p)).1, ids := (labels (c.nodeNum, c.ids) (n.children p)).2,
            stm := { c.stm with tests := GoSet.add c.stm.tests ((n.children p).flatMap (fun x => x.2.tests)) } },
         pureState (Builder.writeIds (labels (c.nodeNum, c.ids) (n.children p ++ kids V)).2 p n)) := by
      unfold Builder.buildState
      rw [buildState_fold _ (Node.children_paths_nodup p n) (fun x hx => hok x (by simp [hx]))]
      rw [pureState_writeIds]
      have e1 : ((labels (c.nodeNum, c.ids) (n.children p ++ kids V)).2 p).getD n.id = (c.with_ Stack.empty).idOf p n := by
        rw [labels_append, labels_other _ _ (hlater p (Or.inl rfl)), labels_other]
        · rfl
        · intro hm
          obtain ⟨x, hx, hxp⟩ := List.mem_map.1 hm
          obtain ⟨j, hj, _⟩ := mem_children.1 (show (x.1, x.2) ∈ n.children p from hx)
          rw [hj] at hxp
          simp at hxp
      rw [e1]
      congr 2
      apply List.foldl_ext
      intro s x hx
      obtain ⟨j, hj, _⟩ := mem_children.1 (show (x.1, x.2) ∈ n.children p from hx)
      rw [labels_append, labels_other _ _ (hlater x.1 (Or.inr ⟨j, hj⟩))]
      rfl
    have hproc : c.proc (p, n) = (typeStep c.stm.types n).map (fun ty =>
        { nodeNum := (labels (c.nodeNum, c.ids) (n.children p)).1
          ids := (labels (c.nodeNum, c.ids) (n.children p)).2
          stm := { states := c.stm.states ++ [pureState (Builder.writeIds (labels (c.nodeNum, c.ids) (n.children p ++ kids V)).2 p n)]
                   types := ty
                   tests := GoSet.add c.stm.tests ((n.children p).flatMap (fun x => x.2.tests)) } }) := by
      unfold Core.proc
      rw [hbs]
      simp only [Builder.inferNodeEventType, typeStep]
      cases n.event with
      | none => rfl
      | some e =>
        simp only [Builder.inferEventType]
        cases RsType.unify (TypeMap.at_ c.stm.types e.channel.name) (some e.value.type) <;> rfl
    rw [hproc]
    cases hty : typeStep c.stm.types n with
    | error e => rfl
    | ok ty =>
      refine (ih hp.2 (fun x hx => hok x (by simp [hx])) _).trans ?_
      simp only [labels_append]
      cases hfold : V.foldlM (fun t pn => typeStep t pn.2) ty with
      | error e => 
        have : (Except.ok ty >>= fun t => V.foldlM (fun t pn => typeStep t pn.2) t) = .error e := hfold
        rw [this]; rfl
      | ok ty' =>
        have : (Except.ok ty >>= fun t => V.foldlM (fun t pn => typeStep t pn.2) t) = .ok ty' := hfold
        rw [this]
        simp [Except.map, GoSet.add, List.foldl_append]

end Rtcg
