import Verif.Proofs.StmTypes
import Verif.Proofs.Trace
import Mathlib.Data.List.Forall2

/-
Theorems about building state machines: C27–C36, C64.
In all of them `Validate.full (some root) = some (.ok t)` says that `t` came out of validation, and
`b.build t = some (.ok (b', m, t'))` that Build returned machine `m`, leaving the tree `t'` with its new IDs.
-/

namespace Rtcg

open Spec

theorem build_cases (b : Builder) {root : Node} {t : Validate.Test} (hv : Validate.full (some root) = some (.ok t)) :
    t = ⟨root⟩ ∧ WellFormed root ∧
    ((∃ b' ty, b.build t = some (.ok (b', machineOf (labelled root) ty, ⟨labelled root⟩)) ∧ TInv (usesOf (visit [] root)) ty ∧
        (visit [] root).foldlM (fun t pn => typeStep t pn.2) ([] : TypeMap) = .ok ty) ∨
     (b.build t = some (.error (.err .unifyDifferentKinds)) ∧
        ∃ n y y', (n, y) ∈ usesOf (visit [] root) ∧ (n, y') ∈ usesOf (visit [] root) ∧ y.kind ≠ y'.kind)) := by
  obtain ⟨rfl, hwf⟩ := (full_ok_iff root t).1 hv
  refine ⟨rfl, hwf, ?_⟩
  obtain ⟨b', hb⟩ := build_eq b root (kidsOK_of_wellFormed hwf)
  rw [hb]
  rcases typeFold_spec (visit [] root) with ⟨ty, h1, h2⟩ | ⟨h1, h2⟩
  · left
    exact ⟨b' ty, ty, by rw [h1]; rfl, h2, h1⟩
  · right
    exact ⟨by rw [h1]; rfl, h2⟩

theorem build_ok {b b' : Builder} {root : Node} {t t' : Validate.Test} {m : Stm}
    (hv : Validate.full (some root) = some (.ok t)) (h : b.build t = some (.ok (b', m, t'))) :
    WellFormed root ∧ t'.root = labelled root ∧ m = machineOf (labelled root) m.types ∧ TInv (usesOf (visit [] root)) m.types ∧
      (visit [] root).foldlM (fun t pn => typeStep t pn.2) ([] : TypeMap) = .ok m.types := by
  obtain ⟨rfl, hwf, ⟨b'', ty, h1, h2, h3⟩ | ⟨h1, _⟩⟩ := build_cases b hv
  · rw [h] at h1
    simp only [Option.some.injEq, Except.ok.injEq, Prod.mk.injEq] at h1
    obtain ⟨_, rfl, rfl⟩ := h1
    exact ⟨hwf, rfl, rfl, h2, h3⟩
  · rw [h] at h1; cases h1

/-! ### C27 -/

/-- Build on a validated test always ends, without a panic, and returns an error exactly when some channel name carries
values of two different type kinds. -/
theorem C27_build_total (b : Builder) (root : Node) (t : Validate.Test) (hv : Validate.full (some root) = some (.ok t)) :
    ∃ r, b.build t = some r ∧ r ≠ .error .panic ∧
      ((∃ f, r = .error f) ↔ ∃ name, Conflict (Carries root name)) := by
  obtain ⟨rfl, hwf, ⟨b', ty, h1, h2, _⟩ | ⟨h1, n, y, y', h2, h3, h4⟩⟩ := build_cases b hv
  · refine ⟨_, h1, by simp, ?_⟩
    simp only [reduceCtorEq, exists_false, false_iff]
    rintro ⟨name, x, y, hx, hy, hk⟩
    exact tinv_no_conflict h2 ⟨name, x, y, (mem_usesOf hwf name x).2 hx, (mem_usesOf hwf name y).2 hy, hk⟩
  · refine ⟨_, h1, by simp, ?_⟩
    refine ⟨fun _ => ⟨n, y, y', (mem_usesOf hwf n y).1 h2, (mem_usesOf hwf n y').1 h3, h4⟩, fun _ => ⟨_, rfl⟩⟩

/-- A test tree with inputs, outputs and values used in the examples. -/
def exTree : Node := Forbidden.expand ⟨[], [⟨⟨c!"a", .in_⟩, .int 1⟩, ⟨⟨c!"b", .out⟩, .int (-2)⟩], ⟨⟨c!"b", .out⟩, .int 3⟩⟩ c!"t"

example : ∃ t r, Validate.full (some exTree) = some (.ok t) ∧ Builder.zero.build t = some (.ok r) ∧
    r.2.1.states.length = 4 :=
  ⟨_, _, (full_ok_iff _ _).2 ⟨rfl, expand_wellFormed _ _⟩, by rfl, by rfl⟩

/-- The error case happens too. -/
example : ∃ t, Validate.full (some (Forbidden.expand ⟨[], [⟨⟨c!"a", .in_⟩, .int 1⟩], ⟨⟨c!"a", .in_⟩, .enum c!"x"⟩⟩ c!"t")) =
    some (.ok t) ∧ Builder.zero.build t = some (.error (.err .unifyDifferentKinds)) :=
  ⟨_, (full_ok_iff _ _).2 ⟨rfl, expand_wellFormed _ _⟩, by rfl⟩

/-! ### C28 -/

theorem listsNonFailing_visit {root : Node} (hwf : WellFormed root) : ListsNonFailing root (visit [] root) := by
  refine ⟨?_, ?_, ?_⟩
  · intro p n
    rw [mem_visit (failLeaf_of_wellFormed hwf), mem_preorder]
    constructor
    · rintro ⟨⟨r, hr, hn⟩, ho⟩
      simp only [List.nil_append] at hr
      subst hr
      exact ⟨hn, ho⟩
    · rintro ⟨hn, ho⟩
      exact ⟨⟨p, rfl, hn⟩, ho⟩
  · rw [List.Nodup, List.pairwise_map]
    refine (visit_pairwise [] root).imp ?_
    intro a b h e
    exact h (by rw [e]; exact List.prefix_rfl)
  · rw [visit_eq, if_neg]
    · rfl
    · rw [hwf.1.2.1]; decide

/-- One state per non-failing node, the root's first, called "initial"; Build changes nothing in the tree but IDs. -/
theorem C28_states (b b' : Builder) (root : Node) (t t' : Validate.Test) (m : Stm)
    (hv : Validate.full (some root) = some (.ok t)) (h : b.build t = some (.ok (b', m, t'))) :
    SameButIds t'.root root ∧ t'.root.id = c!"initial" ∧
    (∃ l, ListsNonFailing t'.root l ∧ m.states.map (·.id) = l.map (fun x => x.2.id)) ∧
    m.initialState = .ok c!"initial" := by
  obtain ⟨hwf, ht, hm, _, _⟩ := build_ok hv h
  have hwf' := (sameButIds_labelled root).wellFormed hwf
  have hids : m.states.map (·.id) = (visit [] (labelled root)).map (fun x => x.2.id) := by
    rw [hm]
    simp only [machineOf, List.map_map]
    apply List.map_congr_left
    intro x _
    exact pureState_id x.2
  have hl := listsNonFailing_visit hwf'
  rw [ht]
  refine ⟨sameButIds_labelled root, labelled_id root, ⟨_, hl, hids⟩, ?_⟩
  have hhead := hl.2.2
  unfold Stm.initialState
  cases hs : m.states with
  | nil =>
    rw [hs] at hids
    rw [List.head?_eq_some_iff] at hhead
    obtain ⟨ys, hys⟩ := hhead
    rw [hys] at hids; simp at hids
  | cons s ss =>
    rw [List.head?_eq_some_iff] at hhead
    obtain ⟨ys, hys⟩ := hhead
    rw [hs, hys] at hids
    simp only [List.map_cons, List.cons.injEq] at hids
    simp [hids.1, labelled_id]

/-- IDs the caller gave (to nodes below the root) are kept. -/
theorem C28_keeps_ids (b b' : Builder) (root : Node) (t t' : Validate.Test) (m : Stm)
    (hv : Validate.full (some root) = some (.ok t)) (h : b.build t = some (.ok (b', m, t')))
    (p : Path) (n n' : Node) (hp : p ≠ []) (hn : nodeAt root p = some n) (hn' : nodeAt t'.root p = some n') (hid : n.id ≠ []) :
    n'.id = n.id := by
  obtain ⟨hwf, ht, _, _, _⟩ := build_ok hv h
  rw [ht] at hn'
  unfold labelled at hn'
  rw [nodeAt_writeIds, hn] at hn'
  simp only [Option.map_some, Option.some.injEq, List.nil_append] at hn'
  subst hn'
  rw [writeIds_eq]
  simp only
  have hk : (p, n) ∈ kids (visit [] root) := (mem_kids (failLeaf_of_wellFormed hwf)).2 ⟨hp, hn⟩
  have h0 : ids0 p = none := by unfold ids0; rw [if_neg hp]
  have := labels_keep (0, ids0) _ (kids_nodup _ (visit_pairwise _ _)) hk (by simp only [h0]; exact hid)
  unfold finalIds
  rw [this]
  simp only [h0]; rfl

/-! ### C29 -/

/-- Without caller-assigned IDs, the k-th child to be labelled is called step k. -/
theorem kids_step_ids {root : Node} (hno : NoIds root) : (kids (visit [] (labelled root))).map (fun x => x.2.id) =
    (List.range (kids (visit [] root)).length).map (fun k => c!"step" ++ decNat k) := by
  unfold labelled
  rw [kids_writeIds, List.map_map]
  have hblank : ∀ x ∈ kids (visit [] root), (ids0 x.1).getD x.2.id = [] := by
    intro x hx
    have : ids0 x.1 = none := by unfold ids0; rw [if_neg (kids_ne_nil hx)]
    simp only [this]
    exact hno _ _ (nodeAt_of_kid hx)
  have := (labels_blank (0, ids0) _ (kids_nodup _ (visit_pairwise [] root)) hblank).2
  apply List.ext_getElem
  · simp
  · intro k h1 h2
    simp only [List.length_map] at h1
    simp only [List.getElem_map, List.getElem_range, Function.comp_apply]
    rw [writeIds_eq]
    unfold finalIds
    rw [this k h1]
    simp

/-- State IDs are never empty; without caller-assigned IDs they are pairwise distinct. -/
theorem C29_state_ids (b b' : Builder) (root : Node) (t t' : Validate.Test) (m : Stm)
    (hv : Validate.full (some root) = some (.ok t)) (h : b.build t = some (.ok (b', m, t'))) :
    (∀ s ∈ m.states, s.id ≠ []) ∧ (NoIds root → (m.states.map (·.id)).Nodup) := by
  obtain ⟨hwf, ht, hm, _, _⟩ := build_ok hv h
  have hids : m.states.map (·.id) = (visit [] (labelled root)).map (fun x => x.2.id) := by
    rw [hm]
    simp only [machineOf, List.map_map]
    apply List.map_congr_left
    intro x _
    exact pureState_id x.2
  constructor
  · intro s hs
    have : s.id ∈ m.states.map (·.id) := List.mem_map_of_mem hs
    rw [hids] at this
    obtain ⟨x, hx, he⟩ := List.mem_map.1 this
    rw [← he]
    rcases mem_visit_cases hx with rfl | hk
    · rw [labelled_id]; simp
    · exact labelled_kid_ne hk
  · intro hno
    rw [hids]
    have hwf' := (sameButIds_labelled root).wellFormed hwf
    obtain ⟨ys, hys⟩ := List.head?_eq_some_iff.1 (listsNonFailing_visit hwf').2.2
    have hperm := visit_tail_kids [] (labelled root)
    rw [hys, List.tail_cons, ← hys] at hperm
    -- the k-th child to be labelled is called step k
    have hkids := kids_step_ids hno
    have hnd : ((kids (visit [] (labelled root))).map (fun x => x.2.id)).Nodup := by
      rw [hkids]
      refine List.Nodup.map ?_ List.nodup_range
      intro i j hij
      exact decNat_inj (List.append_cancel_left hij)
    have hys_nd : (ys.map (fun x => x.2.id)).Nodup := by
      have h1 : (((kids (visit [] (labelled root))).filter (fun x => decide (x.2.outcome ≠ .fail))).map (fun x => x.2.id)).Nodup :=
        (List.filter_sublist.map _).nodup hnd
      exact (hperm.map (fun x => x.2.id)).nodup_iff.1 h1
    rw [hys, List.map_cons, List.nodup_cons]
    refine ⟨?_, hys_nd⟩
    intro hmem
    simp only [labelled_id] at hmem
    have : c!"initial" ∈ (kids (visit [] (labelled root))).map (fun x => x.2.id) := by
      obtain ⟨x, hx, he⟩ := List.mem_map.1 hmem
      have := hperm.mem_iff.2 hx
      exact List.mem_map.2 ⟨x, (List.mem_filter.1 this).1, he⟩
    rw [hkids] at this
    obtain ⟨k, _, hk⟩ := List.mem_map.1 this
    simp at hk

/-- The IDs given to the states: the first is initial, the others are step0, step1, … -/
theorem C29_id_form (b b' : Builder) (root : Node) (t t' : Validate.Test) (m : Stm)
    (hv : Validate.full (some root) = some (.ok t)) (h : b.build t = some (.ok (b', m, t'))) (hno : NoIds root) :
    ∀ s ∈ m.states, s.id = c!"initial" ∨ ∃ k, s.id = c!"step" ++ decNat k := by
  obtain ⟨hwf, ht, hm, _, _⟩ := build_ok hv h
  intro s hs
  rw [hm] at hs
  obtain ⟨x, hx, rfl⟩ := List.mem_map.1 hs
  rw [pureState_id]
  rcases mem_visit_cases hx with rfl | hk
  · left; exact labelled_id root
  · right
    have := List.mem_map_of_mem (f := fun x : Path × Node => x.2.id) hk
    rw [kids_step_ids hno] at this
    obtain ⟨k, _, hk⟩ := List.mem_map.1 this
    exact ⟨k, hk.symm⟩

/-- Trees made from traces have no IDs. -/
theorem C29_expand_noIds (f : Forbidden) (name : Str) : NoIds (f.expand name) := by
  intro p n hn
  rw [expand_eq] at hn
  rcases nodeAt_branch rfl hn with h | ⟨k, o, e, hk, rfl⟩
  · subst h; simp [nodeAt] at hn; subst hn; rfl
  · rfl

/-- With caller-assigned IDs the states' IDs can clash. -/
theorem C29_caller_ids_can_clash : ∃ root t b' m t', Validate.full (some root) = some (.ok t) ∧
    Builder.zero.build t = some (.ok (b', m, t')) ∧ ¬ (m.states.map (·.id)).Nodup := by
  refine ⟨⟨[], [c!"t"], .unset, none, [⟨c!"initial", [c!"t"], .pass, some Event.zero, [⟨[], [c!"t"], .fail, none, []⟩]⟩]⟩,
    ⟨⟨[], [c!"t"], .unset, none, [⟨c!"initial", [c!"t"], .pass, some Event.zero, [⟨[], [c!"t"], .fail, none, []⟩]⟩]⟩⟩, _, _, _,
    by rfl, by rfl, by decide⟩

/-! ### C30 -/

/-- The transition targets of a machine are, as a multiset, the IDs of its states other than the first: every target is a
state, and each non-initial state is entered from exactly one place. -/
theorem C30_targets (b b' : Builder) (root : Node) (t t' : Validate.Test) (m : Stm)
    (hv : Validate.full (some root) = some (.ok t)) (h : b.build t = some (.ok (b', m, t'))) :
    (targets m).Perm (m.states.map (·.id)).tail := by
  obtain ⟨hwf, ht, hm, _, _⟩ := build_ok hv h
  have hids : m.states.map (·.id) = (visit [] (labelled root)).map (fun x => x.2.id) := by
    rw [hm]
    simp only [machineOf, List.map_map]
    apply List.map_congr_left
    intro x _
    exact pureState_id x.2
  have hwf' := (sameButIds_labelled root).wellFormed hwf
  rw [hids, ← List.map_tail]
  have hperm := (visit_tail_kids [] (labelled root)).map (fun x => x.2.id)
  refine List.Perm.trans ?_ hperm
  have hev := kidsOK_of_wellFormed hwf'
  unfold targets
  rw [hm]
  simp only [machineOf, List.flatMap_map]
  have key : ∀ V : List (Path × Node), (∀ x ∈ kids V, ChildOK x.2) →
      (V.flatMap fun x => (pureState x.2).transitionSets.flatMap fun ts => ts.transitions.map (·.next)).Perm
      (((kids V).filter (fun x => decide (x.2.outcome ≠ .fail))).map (fun x => x.2.id)) := by
    intro V
    induction V with
    | nil => intro _; simp [kids]
    | cons x V ih =>
      intro hV
      have hk : kids (x :: V) = x.2.children x.1 ++ kids V := by simp [kids]
      rw [hk] at hV ⊢
      rw [List.flatMap_cons, List.filter_append, List.map_append]
      refine List.Perm.append ?_ (ih fun y hy => hV y (by simp [hy]))
      rw [pureState_sets]
      refine flatMap_group_next.trans ?_
      unfold branches
      rw [List.map_filterMap]
      have hch : ∀ c ∈ x.2.next, ChildOK c := by
        intro c hc
        obtain ⟨i, hi⟩ := List.getElem?_of_mem hc
        exact hV (x.1 ++ [i], c) (List.mem_append_left _ (mem_children.2 ⟨i, rfl, hi⟩))
      have e : ((x.2.children x.1).filter (fun y => decide (y.2.outcome ≠ .fail))).map (fun y => y.2.id) =
          (x.2.next.filter (fun c => decide (c.outcome ≠ .fail))).map (·.id) := by
        have : x.2.next = (x.2.children x.1).map (·.2) := by
          unfold Node.children
          apply List.ext_getElem <;> simp
        rw [this, List.filter_map, List.map_map]
        rfl
      rw [e]
      have e2 : ∀ l : List Node, (∀ c ∈ l, ChildOK c) →
          l.filterMap (fun c => Option.map (fun a : Channel × Transition => a.2.next)
            (if c.outcome = oFail then none else c.event.map fun e => (e.channel, { value := e.value, next := c.id }))) =
          (l.filter (fun c => decide (c.outcome ≠ .fail))).map (·.id) := by
        intro l
        induction l with
        | nil => intro _; rfl
        | cons c l ihl =>
          intro hl
          by_cases hf : c.outcome = .fail
          · have hf' : c.outcome = oFail := hf
            simp only [List.filterMap_cons, hf', if_true, Option.map_none]
            rw [ihl fun d hd => hl d (by simp [hd])]
            simp [hf]
          · obtain ⟨e, he⟩ := hl c (by simp) hf
            have hf' : ¬ c.outcome = oFail := hf
            simp only [List.filterMap_cons, hf', if_false, he, Option.map_some]
            rw [ihl fun d hd => hl d (by simp [hd])]
            simp [hf]
      rw [e2 _ hch]
  exact key _ hev

/-- Every transition leads to a state of the machine. -/
theorem C30_closed (b b' : Builder) (root : Node) (t t' : Validate.Test) (m : Stm)
    (hv : Validate.full (some root) = some (.ok t)) (h : b.build t = some (.ok (b', m, t'))) :
    ∀ s ∈ m.states, ∀ ts ∈ s.transitionSets, ∀ tr ∈ ts.transitions, ∃ s' ∈ m.states, s'.id = tr.next := by
  intro s hs ts hts tr htr
  have hmem : tr.next ∈ targets m :=
    List.mem_flatMap.2 ⟨s, hs, List.mem_flatMap.2 ⟨ts, hts, List.mem_map_of_mem htr⟩⟩
  have := List.mem_of_mem_tail ((C30_targets b b' root t t' m hv h).mem_iff.1 hmem)
  obtain ⟨s', hs', he⟩ := List.mem_map.1 this
  exact ⟨s', hs', he⟩

/-- Without caller-assigned IDs: the initial state is never entered, every other state by exactly one transition. -/
theorem C30_entered_once (b b' : Builder) (root : Node) (t t' : Validate.Test) (m : Stm)
    (hv : Validate.full (some root) = some (.ok t)) (h : b.build t = some (.ok (b', m, t'))) (hno : NoIds root) :
    ∀ s ∈ m.states, (targets m).count s.id = if s.id = c!"initial" then 0 else 1 := by
  intro s hs
  have hnd := (C29_state_ids b b' root t t' m hv h).2 hno
  obtain ⟨_, hi, ⟨l, hl, hids⟩, _⟩ := C28_states b b' root t t' m hv h
  rw [(C30_targets b b' root t t' m hv h).count_eq]
  obtain ⟨ys, hys⟩ := List.head?_eq_some_iff.1 hl.2.2
  have hcons : m.states.map (·.id) = c!"initial" :: (ys.map (fun x => x.2.id)) := by rw [hids, hys]; simp [hi]
  have hmem : s.id ∈ m.states.map (·.id) := List.mem_map_of_mem hs
  rw [hcons] at hnd hmem ⊢
  rw [List.nodup_cons] at hnd
  rw [List.tail_cons]
  rcases List.mem_cons.1 hmem with he | hm
  · rw [if_pos he, List.count_eq_zero, he]; exact hnd.1
  · rw [if_neg, List.count_eq_one_of_mem hnd.2 hm]
    rintro he; rw [he] at hm; exact hnd.1 hm

/-! ### C31, C32 -/

theorem forall₂_states {b b' : Builder} {root : Node} {t t' : Validate.Test} {m : Stm}
    (hv : Validate.full (some root) = some (.ok t)) (h : b.build t = some (.ok (b', m, t')))
    (P : Path × Node → State → Prop) (hP : ∀ x ∈ visit [] (labelled root), P x (pureState x.2)) :
    ∃ l, ListsNonFailing t'.root l ∧ List.Forall₂ P l m.states := by
  obtain ⟨hwf, ht, hm, _, _⟩ := build_ok hv h
  rw [ht]
  refine ⟨_, listsNonFailing_visit ((sameButIds_labelled root).wellFormed hwf), ?_⟩
  rw [hm]
  simp only [machineOf]
  rw [List.forall₂_map_right_iff, List.forall₂_same]
  exact hP

/-- The state of a node has exactly the node's non-failing branches as transitions, grouped by channel. -/
theorem C31_transitions (b b' : Builder) (root : Node) (t t' : Validate.Test) (m : Stm)
    (hv : Validate.full (some root) = some (.ok t)) (h : b.build t = some (.ok (b', m, t'))) :
    ∃ l, ListsNonFailing t'.root l ∧
      List.Forall₂ (fun x s => s.id = x.2.id ∧ Grouped (branches x.2) s.transitionSets) l m.states :=
  forall₂_states hv h _ fun x _ => ⟨pureState_id x.2, by rw [pureState_sets]; exact grouped_group _⟩

/-- The verdict of a state maps a test to the outcome of the last continuation tagged with it, and nothing else. -/
theorem C32_verdicts (b b' : Builder) (root : Node) (t t' : Validate.Test) (m : Stm)
    (hv : Validate.full (some root) = some (.ok t)) (h : b.build t = some (.ok (b', m, t'))) :
    ∃ l, ListsNonFailing t'.root l ∧
      List.Forall₂ (fun x s => s.id = x.2.id ∧ GoMap.WF s.verdict ∧ ∀ test, s.verdict.get? test = lastOutcome x.2 test) l m.states :=
  forall₂_states hv h _ fun x _ => ⟨pureState_id x.2, pureState_verdict_wf x.2, pureState_verdict x.2⟩

/-! ### C33 -/

/-- The test set is the set of tests tagging nodes below the root, and covers every state's verdict. -/
theorem C33_tests (b b' : Builder) (root : Node) (t t' : Validate.Test) (m : Stm)
    (hv : Validate.full (some root) = some (.ok t)) (h : b.build t = some (.ok (b', m, t'))) :
    (GoSet.values m.tests).Nodup ∧
    (∀ x, x ∈ GoSet.values m.tests ↔ ∃ p n, p ≠ [] ∧ nodeAt root p = some n ∧ x ∈ n.tests) ∧
    (∀ s ∈ m.states, ∀ x o, s.verdict.get? x = some o → x ∈ GoSet.values m.tests) := by
  obtain ⟨hwf, ht, hm, _, _⟩ := build_ok hv h
  have hwf' := (sameButIds_labelled root).wellFormed hwf
  have hset := C41_set [(kids (visit [] (labelled root))).flatMap (fun x => x.2.tests)] m.tests (by rw [hm]; exact List.Perm.refl _)
  have hmem : ∀ x, x ∈ GoSet.values m.tests ↔ ∃ p n, p ≠ [] ∧ nodeAt root p = some n ∧ x ∈ n.tests := by
    intro x
    rw [hset.2 x]
    simp only [List.mem_singleton, exists_eq_left, List.mem_flatMap]
    constructor
    · rintro ⟨⟨p, n⟩, hpn, hx⟩
      obtain ⟨hp, hn⟩ := (mem_kids (failLeaf_of_wellFormed hwf')).1 hpn
      unfold labelled at hn
      rw [nodeAt_writeIds] at hn
      cases hn' : nodeAt root p with
      | none => rw [hn'] at hn; simp at hn
      | some n' =>
        rw [hn'] at hn
        simp only [Option.map_some, Option.some.injEq] at hn
        subst hn
        rw [writeIds_eq] at hx
        exact ⟨p, n', hp, hn', hx⟩
    · rintro ⟨p, n, hp, hn, hx⟩
      refine ⟨(p, Builder.writeIds (finalIds root) p n), (mem_kids (failLeaf_of_wellFormed hwf')).2 ⟨hp, ?_⟩, ?_⟩
      · unfold labelled; rw [nodeAt_writeIds, hn]; rfl
      · simp only; rw [writeIds_eq]; exact hx
  refine ⟨hset.1, hmem, ?_⟩
  intro s hs x o ho
  rw [hset.2 x]
  simp only [List.mem_singleton, exists_eq_left, List.mem_flatMap]
  rw [hm] at hs
  simp only [machineOf, List.mem_map] at hs
  obtain ⟨y, hy, rfl⟩ := hs
  rw [pureState_verdict] at ho
  unfold lastOutcome at ho
  cases hl : (y.2.next.filter (fun c => decide (x ∈ c.tests))).getLast? with
  | none => rw [hl] at ho; cases ho
  | some c =>
    have := List.mem_filter.1 (List.mem_of_getLast? hl)
    obtain ⟨i, hi⟩ := List.getElem?_of_mem this.1
    refine ⟨(y.1 ++ [i], c), List.mem_flatMap.2 ⟨y, hy, mem_children.2 ⟨i, rfl, hi⟩⟩, by simpa using this.2⟩

/-! ### C34 -/


/-- The inferred types are the least upper bounds of the types of the values carried. -/
theorem C34_types (b b' : Builder) (root : Node) (t t' : Validate.Test) (m : Stm)
    (hv : Validate.full (some root) = some (.ok t)) (h : b.build t = some (.ok (b', m, t'))) :
    GoMap.WF m.types ∧ TypesAre m.types (Carries root) := by
  obtain ⟨hwf, _, _, hinv, _⟩ := build_ok hv h
  refine ⟨hinv.1, fun name => ?_⟩
  have he : (fun y => (name, y) ∈ usesOf (visit [] root)) = Carries root name := by
    funext y; exact propext (mem_usesOf hwf name y)
  obtain ⟨h1, h2⟩ := hinv.2 name
  constructor
  · rw [h1]
    simp only [mem_usesOf hwf]
  · intro x hx
    obtain ⟨ty, e, _, hl⟩ := h2 x hx
    rw [he] at hl
    exact ⟨ty, e, hl⟩

/-! ### C35 -/

/-- The result of Build is the same whatever the builder did before (in particular from the zero builder). -/
theorem C35_no_history (b₁ b₂ : Builder) (t : Validate.Test) :
    (b₁.build t).map (fun r => r.map (fun x => x.2)) = (b₂.build t).map (fun r => r.map (fun x => x.2)) := rfl

/-! ### C64 -/

/-- Building again, with any builder, the tree that a first Build has labelled gives the same machine and leaves the tree
as it is. -/
theorem C64_rebuild (b b' b'' : Builder) (root : Node) (t t' : Validate.Test) (m : Stm)
    (hv : Validate.full (some root) = some (.ok t)) (h : b.build t = some (.ok (b', m, t'))) :
    ∃ b3, b''.build t' = some (.ok (b3, m, t')) := by
  obtain ⟨hwf, ht, hm, _, hfold⟩ := build_ok hv h
  obtain ⟨r⟩ := t'
  simp only at ht
  subst ht
  obtain ⟨b3, hb⟩ := build_eq b'' (labelled root) (kidsOK_labelled (kidsOK_of_wellFormed hwf))
  have hf : (visit [] (labelled root)).foldlM (fun t pn => typeStep t pn.2) ([] : TypeMap) = .ok m.types := by
    rw [← hfold]
    conv_lhs => unfold labelled
    rw [visit_writeIds, typeFold_labelled]
  rw [labelled_idem, hf] at hb
  refine ⟨b3 m.types, ?_⟩
  rw [hb]
  conv_rhs => rw [hm]
  rfl

end Rtcg
