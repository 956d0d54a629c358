import Verif.Proofs.StmBuild
import Verif.Props.Lang
import Verif.Props.Tree
import Mathlib.Data.List.Perm.Basic
import Mathlib.Data.List.Flatten

namespace Rtcg

open Spec

/-! ### grouping -/

theorem mem_firstUses {l : List Channel} {c : Channel} : c ∈ firstUses l ↔ c ∈ l := by
  induction l with
  | nil => simp [firstUses]
  | cons d l ih =>
    simp only [firstUses, List.mem_cons, List.mem_filter, ih, decide_eq_true_eq]
    constructor
    · rintro (h | ⟨h, _⟩)
      · exact Or.inl h
      · exact Or.inr h
    · rintro (h | h)
      · exact Or.inl h
      · by_cases e : c = d
        · exact Or.inl e
        · exact Or.inr ⟨h, e⟩

theorem firstUses_nodup (l : List Channel) : (firstUses l).Nodup := by
  induction l with
  | nil => simp [firstUses]
  | cons d l ih =>
    simp only [firstUses, List.nodup_cons, List.mem_filter]
    exact ⟨by simp, ih.filter _⟩

theorem firstUses_concat (l : List Channel) (c : Channel) :
    firstUses (l ++ [c]) = if c ∈ l then firstUses l else firstUses l ++ [c] := by
  induction l with
  | nil => simp [firstUses]
  | cons d l ih =>
    simp only [List.cons_append, firstUses, ih]
    by_cases h : c ∈ l
    · simp [h]
    · by_cases e : c = d
      · subst e; simp [h]
      · simp [h, e]

theorem addToSets_map (L : List Channel) (hL : L.Nodup) (g : Channel → List Transition) (c : Channel) (t : Transition) :
    addToSets (L.map fun d => ⟨d, g d⟩) c t =
      if c ∈ L then L.map fun d => ⟨d, if d = c then g d ++ [t] else g d⟩
      else (L.map fun d => ⟨d, g d⟩) ++ [⟨c, [t]⟩] := by
  induction L with
  | nil => simp [addToSets]
  | cons d L ih =>
    rw [List.nodup_cons] at hL
    simp only [List.map_cons, addToSets, C09_channel_equals]
    by_cases e : d = c
    · subst e
      simp only [if_true, List.mem_cons, true_or]
      congr 1
      apply List.map_congr_left
      intro x hx
      have : x ≠ d := fun h => hL.1 (h ▸ hx)
      simp [this]
    · have e' : ¬ c = d := fun h => e h.symm
      rw [if_neg e, ih hL.2]
      simp only [List.mem_cons, e', false_or]
      by_cases h : c ∈ L
      · simp [h, e]
      · simp [h]

/-- The explicit grouping. -/
def group (adds : List (Channel × Transition)) : List TSet :=
  (firstUses (adds.map (·.1))).map fun c => ⟨c, (adds.filter (fun a => a.1 = c)).map (·.2)⟩

theorem addToSets_group (adds : List (Channel × Transition)) (c : Channel) (t : Transition) :
    addToSets (group adds) c t = group (adds ++ [(c, t)]) := by
  unfold group
  rw [addToSets_map _ (firstUses_nodup _)]
  simp only [mem_firstUses, List.map_append, List.map_cons, List.map_nil, firstUses_concat]
  split
  · rename_i h
    apply List.map_congr_left
    intro d _
    by_cases e : d = c
    · subst e; simp
    · have : ¬ c = d := fun h => e h.symm
      simp [e, this]
  · rename_i h
    rw [List.map_append]
    congr 1
    · apply List.map_congr_left
      intro d hd
      have : ¬ c = d := by rintro rfl; exact h (mem_firstUses.1 hd)
      simp [this]
    · have : adds.filter (fun a => a.1 = c) = [] := by
        rw [List.filter_eq_nil_iff]
        intro a ha
        simp only [decide_eq_true_eq]
        rintro rfl
        exact h (List.mem_map_of_mem ha)
      simp [this]

theorem foldl_addToSets (adds pre : List (Channel × Transition)) :
    adds.foldl (fun sets a => addToSets sets a.1 a.2) (group pre) = group (pre ++ adds) := by
  induction adds generalizing pre with
  | nil => simp
  | cons a adds ih => rw [List.foldl_cons, addToSets_group, ih]; simp

theorem grouped_group (adds : List (Channel × Transition)) : Grouped adds (group adds) := by
  unfold Grouped group
  constructor
  · simp [Function.comp_def]
  · intro s hs
    obtain ⟨c, _, rfl⟩ := List.mem_map.1 hs
    rfl

theorem flatMap_group_next {l : List (Channel × Transition)} :
    ((group l).flatMap (fun ts => ts.transitions.map (·.next))).Perm (l.map (fun a => a.2.next)) := by
  have key : ∀ (L : List Channel), L.Nodup → ((L.map fun c => (⟨c, (l.filter (fun a => a.1 = c)).map (·.2)⟩ : TSet)).flatMap
      (fun ts => ts.transitions.map (·.next))).Perm ((l.filter (fun a => a.1 ∈ L)).map (fun a => a.2.next)) := by
    intro L
    induction L with
    | nil => simp
    | cons c L ih =>
      intro hn
      rw [List.nodup_cons] at hn
      simp only [List.map_cons, List.flatMap_cons, List.map_map]
      have h1 := (List.filter_append_perm (fun a : Channel × Transition => decide (a.1 = c)) (l.filter (fun a => decide (a.1 ∈ c :: L)))).symm
      rw [List.filter_filter, List.filter_filter] at h1
      have e1 : l.filter (fun a => decide (a.1 = c) && decide (a.1 ∈ c :: L)) = l.filter (fun a => decide (a.1 = c)) := by
        apply List.filter_congr
        intro a _
        by_cases h : a.1 = c <;> simp [h]
      have e2 : l.filter (fun a => (!decide (a.1 = c)) && decide (a.1 ∈ c :: L)) = l.filter (fun a => decide (a.1 ∈ L)) := by
        apply List.filter_congr
        intro a _
        by_cases h : a.1 = c
        · simp [h, hn.1]
        · simp [h]
      rw [e1, e2] at h1
      have h2 := h1.map (fun a => a.2.next)
      rw [List.map_append] at h2
      exact ((List.Perm.refl _).append (ih hn.2)).trans h2.symm
  have := key (firstUses (l.map (·.1))) (firstUses_nodup _)
  refine this.trans ?_
  rw [List.filter_eq_self.2]
  intro a ha
  simp only [mem_firstUses, decide_eq_true_eq]
  exact List.mem_map_of_mem ha

/-! ### the state of a node -/

theorem outgoing_id (s : State) (id : Str) (n : Node) : (outgoing s id n).id = s.id := by
  unfold outgoing State.addVerdictsFromNode
  simp only
  split
  · rfl
  · cases n.event <;> rfl

theorem outgoing_verdict (s : State) (id : Str) (n : Node) :
    (outgoing s id n).verdict = s.verdict.add n.outcome n.tests := by
  unfold outgoing State.addVerdictsFromNode
  simp only
  split
  · rfl
  · cases n.event <;> rfl

theorem pureState_id (n : Node) : (pureState n).id = n.id := by
  unfold pureState
  have : ∀ (l : List Node) (s : State), (l.foldl (fun s c => outgoing s c.id c) s).id = s.id := by
    intro l
    induction l with
    | nil => intro s; rfl
    | cons c l ih => intro s; rw [List.foldl_cons, ih, outgoing_id]
  rw [this]; rfl

theorem pureState_sets (n : Node) : (pureState n).transitionSets = group (branches n) := by
  unfold pureState branches
  have : ∀ (l : List Node) (s : State) (pre : List (Channel × Transition)), s.transitionSets = group pre →
      (l.foldl (fun s c => outgoing s c.id c) s).transitionSets = group (pre ++ l.filterMap fun c =>
        if c.outcome = oFail then none else c.event.map fun e => (e.channel, { value := e.value, next := c.id })) := by
    intro l
    induction l with
    | nil => intro s pre h; simpa using h
    | cons c l ih =>
      intro s pre h
      rw [List.foldl_cons]
      by_cases hf : c.outcome = oFail
      · have : (outgoing s c.id c).transitionSets = group pre := by
          unfold outgoing State.addVerdictsFromNode
          simp only
          rw [if_pos (show c.outcome = .fail from hf)]; exact h
        rw [ih _ pre this]
        simp [hf]
      · cases he : c.event with
        | none =>
          have : (outgoing s c.id c).transitionSets = group pre := by
            unfold outgoing State.addVerdictsFromNode
            simp only
            rw [if_neg (show ¬ c.outcome = .fail from hf), he]; exact h
          rw [ih _ pre this]
          simp [hf, he]
        | some e =>
          have : (outgoing s c.id c).transitionSets = group (pre ++ [(e.channel, ⟨e.value, c.id⟩)]) := by
            unfold outgoing State.addVerdictsFromNode
            simp only
            rw [if_neg (show ¬ c.outcome = .fail from hf), he]
            simp only
            rw [h, addToSets_group]
          rw [ih _ _ this]
          simp [hf, he]
  have := this n.next (State.new n.id) [] rfl
  rw [this]
  simp

theorem verdict_get?_add (v : Verdict) (o : Outcome) (ts : List Str) (t : Str) :
    GoMap.get? (v.add o ts) t = if t ∈ ts then some o else GoMap.get? v t := by
  unfold Verdict.add
  induction ts generalizing v with
  | nil => simp
  | cons x ts ih =>
    rw [List.foldl_cons, ih, GoMap.get?_set]
    by_cases h : t ∈ ts
    · simp [h]
    · by_cases e : x = t
      · simp [e]
      · have : ¬ t = x := fun h => e h.symm
        simp [h, e, this]

theorem verdict_wf_add (v : Verdict) (hv : GoMap.WF v) (o : Outcome) (ts : List Str) : GoMap.WF (v.add o ts) := by
  unfold Verdict.add
  induction ts generalizing v with
  | nil => exact hv
  | cons x ts ih => exact ih _ (GoMap.wf_set hv _ _)

theorem pureState_verdict (n : Node) (t : Str) : GoMap.get? (pureState n).verdict t = lastOutcome n t := by
  unfold pureState lastOutcome
  have : ∀ (l : List Node) (s : State),
      GoMap.get? (l.foldl (fun s c => outgoing s c.id c) s).verdict t =
        (((l.filter (fun c => t ∈ c.tests)).getLast?).map (·.outcome)).or (GoMap.get? s.verdict t) := by
    intro l
    induction l with
    | nil => intro s; simp
    | cons c l ih =>
      intro s
      rw [List.foldl_cons, ih, outgoing_verdict, verdict_get?_add]
      by_cases h : t ∈ c.tests
      · simp only [h, if_true, List.filter_cons, decide_true]
        rw [List.getLast?_cons]
        cases (l.filter (fun c => decide (t ∈ c.tests))).getLast? <;> simp
      · simp [h]
  rw [this]
  cases ((n.next.filter (fun c => decide (t ∈ c.tests))).getLast?) <;> simp [State.new, GoMap.get?]

theorem pureState_verdict_wf (n : Node) : GoMap.WF (pureState n).verdict := by
  unfold pureState
  have : ∀ (l : List Node) (s : State), GoMap.WF s.verdict →
      GoMap.WF (l.foldl (fun s c => outgoing s c.id c) s).verdict := by
    intro l
    induction l with
    | nil => intro s h; exact h
    | cons c l ih => intro s h; exact ih _ (by rw [outgoing_verdict]; exact verdict_wf_add _ h _ _)
  exact this _ _ GoMap.wf_nil

/-! ### children and visits -/

theorem visit_tail_kids (p : Path) (n : Node) :
    ((kids (visit p n)).filter (fun x => decide (x.2.outcome ≠ .fail))).Perm (visit p n).tail := by
  induction n using Node.ind generalizing p with
  | h n ih =>
    rw [visit_eq]
    split
    · simp [kids]
    · rename_i ho
      have hk : kids ((p, n) :: (n.children p).reverse.flatMap (fun pn => visit pn.1 pn.2)) =
          n.children p ++ (n.children p).reverse.flatMap (fun pn => kids (visit pn.1 pn.2)) := by
        simp [kids, List.flatMap_assoc]
      rw [hk, List.filter_append, List.tail_cons]
      have hv : ∀ pn : Path × Node, visit pn.1 pn.2 =
          (if pn.2.outcome ≠ .fail then [pn] else []) ++ (visit pn.1 pn.2).tail := by
        intro pn
        rw [visit_eq]
        by_cases h : pn.2.outcome = .fail <;> simp [h]
      have h1 : (n.children p).reverse.flatMap (fun pn => visit pn.1 pn.2) =
          (n.children p).reverse.flatMap (fun pn => (if pn.2.outcome ≠ .fail then [pn] else []) ++ (visit pn.1 pn.2).tail) := by
        congr 1; funext pn; exact hv pn
      rw [h1]
      refine List.Perm.trans ?_ (List.flatMap_append_perm _ _ _)
      refine List.Perm.append ?_ ?_
      · have : ∀ l : List (Path × Node), l.flatMap (fun pn => if pn.2.outcome ≠ .fail then [pn] else []) =
            l.filter (fun x => decide (x.2.outcome ≠ .fail)) := by
          intro l
          induction l with
          | nil => rfl
          | cons a l ih => by_cases h : a.2.outcome = .fail <;> simp [h, ih] <;> simpa using ih
        rw [this, List.filter_reverse]
        exact (List.reverse_perm _).symm
      · rw [List.filter_flatMap]
        have : ∀ l : List (Path × Node), (∀ x ∈ l, x.2 ∈ n.next) →
            (l.flatMap (fun pn => (kids (visit pn.1 pn.2)).filter (fun x => decide (x.2.outcome ≠ .fail)))).Perm
            (l.flatMap (fun pn => (visit pn.1 pn.2).tail)) := by
          intro l hl
          induction l with
          | nil => simp
          | cons a l ihl =>
            simp only [List.flatMap_cons]
            exact (ih a.2 (hl a (by simp)) a.1).append (ihl fun x hx => hl x (by simp [hx]))
        apply this
        intro x hx
        rw [List.mem_reverse] at hx
        obtain ⟨i, _, hi⟩ := mem_children.1 (show (x.1, x.2) ∈ n.children p from hx)
        exact List.mem_of_getElem? hi

/-- Every visited node but the root is a child of a visited node. -/
theorem mem_visit_cases {root : Node} {x : Path × Node} (h : x ∈ visit [] root) :
    x = ([], root) ∨ x ∈ kids (visit [] root) := by
  have := visit_tail_kids [] root
  rw [visit_eq] at h
  split at h
  · simp at h
  · rename_i ho
    rcases List.mem_cons.1 h with h | h
    · exact Or.inl h
    · right
      have ht : (visit [] root).tail = (root.children []).reverse.flatMap (fun pn => visit pn.1 pn.2) := by
        rw [visit_eq, if_neg ho]; rfl
      rw [← ht] at h
      exact (List.mem_filter.1 (this.mem_iff.2 h)).1

theorem nodeAt_of_kid {root : Node} {x : Path × Node} (hx : x ∈ kids (visit [] root)) : nodeAt root x.1 = some x.2 := by
  rw [kids, List.mem_flatMap] at hx
  obtain ⟨pn, hpn, hc⟩ := hx
  have h1 := (visit_subset hpn).1
  have h2 : x ∈ preorder [] root := by
    have hx' := hc
    obtain ⟨i, hq, hi⟩ := mem_children.1 (show (x.1, x.2) ∈ pn.2.children pn.1 from hc)
    obtain ⟨r, hr, hn⟩ := mem_preorder.1 (show (pn.1, pn.2) ∈ preorder [] root from h1)
    refine mem_preorder.2 ⟨x.1, by simp, ?_⟩
    simp only [List.nil_append] at hr
    rw [hq, hr]
    have : ∀ (p : Path) (m : Node), nodeAt m p = some pn.2 → nodeAt m (p ++ [i]) = some x.2 := by
      intro p
      induction p with
      | nil => intro m hm; simp [nodeAt] at hm; subst hm; simp [nodeAt, hi]
      | cons j p ih =>
        intro m hm
        simp only [nodeAt, List.cons_append] at hm ⊢
        cases hj : m.next[j]? with
        | none => simp [hj] at hm
        | some d => simp only [hj] at hm ⊢; exact ih d hm
    exact this r root hn
  obtain ⟨r, hr, hn⟩ := mem_preorder.1 (show (x.1, x.2) ∈ preorder [] root from h2)
  simp only [List.nil_append] at hr
  rw [hr]; exact hn

/-- When failing nodes are leaves, the children of visited nodes are all nodes but the root. -/
theorem mem_kids {root : Node} (hleaf : ∀ r m, nodeAt root r = some m → m.outcome = .fail → m.next = [])
    {p : Path} {n : Node} : (p, n) ∈ kids (visit [] root) ↔ p ≠ [] ∧ nodeAt root p = some n := by
  constructor
  · intro h; exact ⟨kids_ne_nil h, nodeAt_of_kid h⟩
  · rintro ⟨hp, hn⟩
    obtain ⟨q, i, rfl⟩ : ∃ q i, p = q ++ [i] := ⟨p.dropLast, p.getLast hp, (List.dropLast_append_getLast hp).symm⟩
    have : ∃ m, nodeAt root q = some m ∧ m.next[i]? = some n := by
      clear hp hleaf
      induction q generalizing root with
      | nil =>
        simp only [nodeAt, List.nil_append] at hn
        cases hi : root.next[i]? with
        | none => simp [hi] at hn
        | some c => simp [hi] at hn; exact ⟨root, rfl, by rw [hi, hn]⟩
      | cons j q ih =>
        simp only [nodeAt, List.cons_append] at hn ⊢
        cases hj : root.next[j]? with
        | none => simp [hj] at hn
        | some d => simp only [hj] at hn ⊢; exact ih hn
    obtain ⟨m, hm, hi⟩ := this
    rw [kids, List.mem_flatMap]
    refine ⟨(q, m), ?_, mem_children.2 ⟨i, rfl, hi⟩⟩
    rw [mem_visit hleaf]
    refine ⟨mem_preorder.2 ⟨q, by simp, hm⟩, ?_⟩
    intro hf
    have := hleaf q m hm hf
    rw [this] at hi
    simp at hi

end Rtcg
