import Verif.Proofs.Stm
import Verif.Proofs.Lang
import Verif.Spec.Stm

namespace Rtcg

open Spec

/-! ### the machine of a labelled tree -/

/-- The ID fields before the first visit. -/
def ids0 : Path → Option Str := fun q => if q = [] then some c!"initial" else none

/-- The ID fields Build leaves behind. -/
def finalIds (root : Node) : Path → Option Str := (labels (0, ids0) (kids (visit [] root))).2

/-- The tree Build leaves behind. -/
def labelled (root : Node) : Node := Builder.writeIds (finalIds root) [] root

/-- The children the builder handles all have events (or are failing). -/
def KidsOK (root : Node) : Prop := ∀ x ∈ kids (visit [] root), ChildOK x.2

/-- Everything but the types of the machine of a labelled tree. -/
def machineOf (T : Node) (ty : TypeMap) : Stm :=
  { states := (visit [] T).map (fun pn => pureState pn.2)
    types := ty
    tests := GoSet.new ((kids (visit [] T)).flatMap (fun x => x.2.tests)) }

theorem children_writeIds (ids : Path → Option Str) (p : Path) (n : Node) :
    (Builder.writeIds ids p n).children p = (n.children p).map (fun x => (x.1, Builder.writeIds ids x.1 x.2)) := by
  rw [writeIds_eq]
  unfold Node.children
  apply List.ext_getElem <;> simp

theorem visit_writeIds (ids : Path → Option Str) (p : Path) (n : Node) :
    visit p (Builder.writeIds ids p n) = (visit p n).map (fun x => (x.1, Builder.writeIds ids x.1 x.2)) := by
  induction n using Node.ind generalizing p with
  | h n ih =>
    rw [visit_eq, visit_eq p n, children_writeIds]
    have ho : (Builder.writeIds ids p n).outcome = n.outcome := by rw [writeIds_eq]
    rw [ho]
    split
    · rfl
    · rw [List.map_cons]
      congr 1
      rw [← List.map_reverse, List.flatMap_map, List.map_flatMap]
      rw [List.flatMap_eq_foldl, List.flatMap_eq_foldl]
      apply List.foldl_ext
      rintro acc ⟨q, c⟩ hc
      rw [List.mem_reverse] at hc
      obtain ⟨i, rfl, hi⟩ := mem_children.1 hc
      rw [ih c (List.mem_of_getElem? hi)]

theorem kids_writeIds (ids : Path → Option Str) (p : Path) (n : Node) :
    kids (visit p (Builder.writeIds ids p n)) = (kids (visit p n)).map (fun x => (x.1, Builder.writeIds ids x.1 x.2)) := by
  rw [visit_writeIds]
  unfold kids
  rw [List.flatMap_map, List.map_flatMap]
  simp only [children_writeIds]

theorem typeFold_labelled (V : List (Path × Node)) (ids : Path → Option Str) (t : TypeMap) :
    (V.map (fun x => (x.1, Builder.writeIds ids x.1 x.2))).foldlM (fun t pn => typeStep t pn.2) t =
      V.foldlM (fun t (pn : Path × Node) => typeStep t pn.2) t := by
  induction V generalizing t with
  | nil => rfl
  | cons x V ih =>
    rw [List.map_cons, List.foldlM_cons, List.foldlM_cons]
    have : typeStep t (Builder.writeIds ids x.1 x.2) = typeStep t x.2 := by
      rw [writeIds_eq]; rfl
    simp only [this, ih]

theorem build_eq (b : Builder) (root : Node) (hok : KidsOK root) :
    ∃ b' : TypeMap → Builder, b.build ⟨root⟩ =
      some (((visit [] root).foldlM (fun t pn => typeStep t pn.2) []).map (fun ty =>
        (b' ty, machineOf (labelled root) ty, ⟨labelled root⟩))) := by
  have hloop := buildLoop_eq (root.size + 1) [([], root)] ⟨0, Stm.fresh, ids0⟩ (by simp)
  have hb : ∀ s, Builder.mk 0 (Stack.push ⟨[], 0⟩ ([], root)) Stm.fresh s = Core.with_ ⟨0, Stm.fresh, s⟩
      ⟨[(([] : Path), root)].reverse, [(([] : Path), root)].reverse.length⟩ := by
    intro s; rfl
  unfold Builder.build
  simp only [Builder.setID, Stack.clear]
  have hids : (fun q : Path => if q = [] then some c!"initial" else none) = ids0 := rfl
  simp only [hids, hb, hloop]
  simp only [List.flatMap_cons, List.flatMap_nil, List.append_nil]
  rw [proc_fold _ (visit_pairwise _ _) hok]
  simp only [Stm.fresh]
  have hl : (labels (0, ids0) (kids (visit [] root))).2 = finalIds root := rfl
  refine ⟨fun ty => Core.with_ ⟨(labels (0, ids0) (kids (visit [] root))).1, machineOf (labelled root) ty, finalIds root⟩ Stack.empty, ?_⟩
  cases hf : (visit [] root).foldlM (fun t pn => typeStep t pn.2) ([] : TypeMap) with
  | error e => rfl
  | ok ty =>
    simp only [Except.map, hl, List.nil_append]
    have hm : machineOf (labelled root) ty =
        { states := (visit [] root).map (fun pn => pureState (Builder.writeIds (finalIds root) pn.1 pn.2))
          types := ty
          tests := GoSet.add (GoSet.new []) ((kids (visit [] root)).flatMap (fun x => x.2.tests)) } := by
      unfold machineOf labelled
      rw [kids_writeIds, visit_writeIds, List.map_map, List.flatMap_map]
      congr 1
      unfold GoSet.new
      congr 2
      funext x
      rw [writeIds_eq]
    rw [hm]
    rfl

/-! ### well-formed trees -/

theorem kidsOK_of_wellFormed {root : Node} (h : WellFormed root) : KidsOK root := by
  rintro ⟨q, c⟩ hx hf
  rw [kids, List.mem_flatMap] at hx
  obtain ⟨⟨p, n⟩, hpn, hc⟩ := hx
  obtain ⟨i, rfl, hi⟩ := mem_children.1 hc
  obtain ⟨r, hr, hn⟩ := mem_preorder.1 (visit_subset hpn).1
  simp only [List.nil_append] at hr
  subst hr
  have hat : nodeAt root (p ++ [i]) = some c := by
    have : ∀ (p : Path) (m : Node), nodeAt m p = some n → nodeAt m (p ++ [i]) = some c := by
      intro p
      induction p with
      | nil => intro m hm; simp [nodeAt] at hm; subst hm; simp [nodeAt, hi]
      | cons j p ih =>
        intro m hm
        simp only [nodeAt, List.cons_append] at hm ⊢
        cases hj : m.next[j]? with
        | none => simp [hj] at hm
        | some d => simp only [hj] at hm ⊢; exact ih d hm
    exact this p root hn
  obtain ⟨_, h | h | h⟩ := h.2 (p ++ [i]) c (by simp) hat
  · exact absurd h.1 hf
  · exact h.2.1
  · exact h.2.1

theorem failLeaf_of_wellFormed {root : Node} (h : WellFormed root) :
    ∀ r m, nodeAt root r = some m → m.outcome = .fail → m.next = [] := by
  intro r m hm ho
  cases r with
  | nil =>
    simp [nodeAt] at hm; subst hm
    have := h.1.2.1
    rw [ho] at this; exact absurd this (by decide)
  | cons i r =>
    obtain ⟨_, h | h | h⟩ := h.2 (i :: r) m (by simp) hm
    · exact h.2.2
    · rw [ho] at h; exact absurd h.1 (by decide)
    · rw [ho] at h; exact absurd h.1 (by decide)

/-! ### nodes of the labelled tree -/

theorem nodeAt_writeIds (ids : Path → Option Str) (n : Node) (p q : Path) :
    nodeAt (Builder.writeIds ids p n) q = (nodeAt n q).map (fun m => Builder.writeIds ids (p ++ q) m) := by
  induction q generalizing n p with
  | nil => simp [nodeAt]
  | cons i q ih =>
    rw [writeIds_eq]
    simp only [nodeAt, List.getElem?_mapIdx]
    cases h : n.next[i]? with
    | none => rfl
    | some c =>
      simp only [Option.map_some]
      rw [ih]
      simp

theorem sameButIds_writeIds (ids : Path → Option Str) (root : Node) : SameButIds (Builder.writeIds ids [] root) root := by
  intro p
  rw [nodeAt_writeIds]
  cases nodeAt root p with
  | none => rfl
  | some n => simp only [Option.map_some]; rw [writeIds_eq]; simp

theorem sameButIds_labelled (root : Node) : SameButIds (labelled root) root := sameButIds_writeIds _ _

theorem Spec.SameButIds.wellFormed {a b : Node} (h : SameButIds a b) (hb : WellFormed b) : WellFormed a := by
  have hroot := h []
  simp only [nodeAt, Option.map_some, Option.some.injEq, Prod.mk.injEq] at hroot
  obtain ⟨h1, h2, h3, _⟩ := hroot
  refine ⟨⟨by rw [h3]; exact hb.1.1, by rw [h2]; exact hb.1.2.1, by rw [h1]; exact hb.1.2.2⟩, ?_⟩
  intro p n hp hn
  have := h p
  rw [hn] at this
  cases hm : nodeAt b p with
  | none => rw [hm] at this; simp at this
  | some m =>
    rw [hm] at this
    simp only [Option.map_some, Option.some.injEq, Prod.mk.injEq] at this
    obtain ⟨k1, k2, k3, k4⟩ := this
    obtain ⟨g1, g⟩ := hb.2 p m hp hm
    refine ⟨by rw [k1]; exact g1, ?_⟩
    rcases g with ⟨g2, g3, g4⟩ | ⟨g2, g3, ⟨c, g4⟩⟩ | ⟨g2, g3, g4⟩
    · exact Or.inl ⟨by rw [k2, g2], by rw [k3, g3], by rw [g4] at k4; exact List.length_eq_zero_iff.1 k4⟩
    · refine Or.inr (Or.inl ⟨by rw [k2, g2], by rw [k3]; exact g3, ?_⟩)
      rw [g4] at k4; exact List.length_eq_one_iff.1 k4
    · refine Or.inr (Or.inr ⟨by rw [k2, g2], by rw [k3]; exact g3, ?_⟩)
      intro hc; rw [hc] at k4; exact g4 (List.length_eq_zero_iff.1 k4.symm)

theorem kids_nodup (V : List (Path × Node)) (hp : V.Pairwise (fun a b => ¬ b.1 <+: a.1)) : ((kids V).map (·.1)).Nodup := by
  induction V with
  | nil => simp [kids]
  | cons x V ih =>
    rw [List.pairwise_cons] at hp
    have : kids (x :: V) = x.2.children x.1 ++ kids V := by simp [kids]
    rw [this, List.map_append, List.nodup_append]
    refine ⟨Node.children_paths_nodup _ _, ih hp.2, ?_⟩
    intro a ha b hb hab
    subst hab
    obtain ⟨y, hy, rfl⟩ := List.mem_map.1 ha
    obtain ⟨z, hz, hzy⟩ := List.mem_map.1 hb
    obtain ⟨i, hi, _⟩ := mem_children.1 (show (y.1, y.2) ∈ x.2.children x.1 from hy)
    rw [kids, List.mem_flatMap] at hz
    obtain ⟨w, hw, hz⟩ := hz
    obtain ⟨j, hj, _⟩ := mem_children.1 (show (z.1, z.2) ∈ w.2.children w.1 from hz)
    rw [hi, hj] at hzy
    have := List.append_inj_left' hzy rfl
    exact hp.1 w hw (by rw [this]; exact List.prefix_rfl)

theorem kids_ne_nil {V : List (Path × Node)} {x : Path × Node} (hx : x ∈ kids V) : x.1 ≠ [] := by
  rw [kids, List.mem_flatMap] at hx
  obtain ⟨w, hw, hz⟩ := hx
  obtain ⟨j, hj, _⟩ := mem_children.1 (show (x.1, x.2) ∈ w.2.children w.1 from hz)
  rw [hj]; simp

theorem finalIds_root (root : Node) : finalIds root [] = some c!"initial" := by
  unfold finalIds
  rw [labels_other]
  · rfl
  · intro h
    obtain ⟨x, hx, he⟩ := List.mem_map.1 h
    exact kids_ne_nil hx he

theorem labelled_id (root : Node) : (labelled root).id = c!"initial" := by
  unfold labelled
  rw [writeIds_eq, finalIds_root]
  rfl

/-- Every child of a visited node has an ID in the labelled tree. -/
theorem labelled_kid_ne {root : Node} {x : Path × Node} (hx : x ∈ kids (visit [] (labelled root))) : x.2.id ≠ [] := by
  unfold labelled at hx
  rw [kids_writeIds] at hx
  obtain ⟨y, hy, rfl⟩ := List.mem_map.1 hx
  simp only
  rw [writeIds_eq]
  exact labels_ne _ _ (kids_nodup _ (visit_pairwise _ _)) hy

/-- Labelling a labelled tree changes nothing. -/
theorem labelled_idem (root : Node) : labelled (labelled root) = labelled root := by
  have h1 : finalIds (labelled root) = ids0 := by
    unfold finalIds
    rw [labels_noop]
    intro x hx
    have : ids0 x.1 = none := by unfold ids0; rw [if_neg (kids_ne_nil hx)]
    simp only [this]
    exact labelled_kid_ne hx
  have h2 : ∀ (n : Node) (p : Path), (p = [] → n.id = c!"initial") → Builder.writeIds ids0 p n = n := by
    intro n
    induction n using Node.ind with
    | h n ih =>
      intro p hp
      rw [writeIds_eq]
      have e1 : (ids0 p).getD n.id = n.id := by
        unfold ids0
        by_cases h : p = []
        · rw [if_pos h, hp h]; rfl
        · rw [if_neg h]; rfl
      have e2 : n.next.mapIdx (fun k c => Builder.writeIds ids0 (p ++ [k]) c) = n.next := by
        apply List.ext_getElem
        · simp
        · intro k h1 h2
          rw [List.getElem_mapIdx]
          exact ih _ (List.getElem_mem _) _ (by simp)
      rw [e1, e2]
      cases n; rfl
  show Builder.writeIds (finalIds (labelled root)) [] (labelled root) = labelled root
  rw [h1]
  exact h2 _ _ (fun _ => labelled_id root)

theorem kidsOK_labelled {root : Node} (h : KidsOK root) : KidsOK (labelled root) := by
  intro x hx
  unfold labelled at hx
  rw [kids_writeIds] at hx
  obtain ⟨y, hy, rfl⟩ := List.mem_map.1 hx
  have := h y hy
  unfold ChildOK at this ⊢
  simp only
  rw [writeIds_eq]
  exact this

end Rtcg
