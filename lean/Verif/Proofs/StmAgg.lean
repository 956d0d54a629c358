import Verif.Proofs.StmSpec

namespace Rtcg

open Spec

/-! ### merging into a state map -/

/-- `m[k] = append(m[k], l...)` -/
def mergeAdd (m : GoMap Str (List Transition)) (x : Str × List Transition) : GoMap Str (List Transition) :=
  GoMap.set m x.1 ((GoMap.get? m x.1).getD [] ++ x.2)

def mergeAll (m : GoMap Str (List Transition)) (xs : List (Str × List Transition)) : GoMap Str (List Transition) :=
  xs.foldl mergeAdd m

theorem mergeAll_wf {m : GoMap Str (List Transition)} (hm : GoMap.WF m) (xs : List (Str × List Transition)) :
    GoMap.WF (mergeAll m xs) := by
  induction xs generalizing m with
  | nil => exact hm
  | cons x xs ih => exact ih (GoMap.wf_set hm _ _)

theorem mergeAll_append (m : GoMap Str (List Transition)) (xs ys : List (Str × List Transition)) :
    mergeAll m (xs ++ ys) = mergeAll (mergeAll m xs) ys := List.foldl_append

theorem get?_mergeAll (m : GoMap Str (List Transition)) (xs : List (Str × List Transition)) (k : Str) :
    GoMap.get? (mergeAll m xs) k =
      if GoMap.get? m k = none ∧ k ∉ xs.map (·.1) then none
      else some ((GoMap.get? m k).getD [] ++ (xs.filter (fun x => x.1 = k)).flatMap (·.2)) := by
  induction xs generalizing m with
  | nil =>
    cases h : GoMap.get? m k <;> simp [mergeAll, h]
  | cons x xs ih =>
    have e : mergeAll m (x :: xs) = mergeAll (mergeAdd m x) xs := rfl
    rw [e, ih]
    unfold mergeAdd
    rw [GoMap.get?_set]
    by_cases hx : x.1 = k
    · subst hx; simp
    · have hx' : ¬ k = x.1 := fun h => hx h.symm
      rw [if_neg hx, List.map_cons, List.filter_cons_of_neg (by simpa using hx)]
      simp only [List.mem_cons, hx', false_or]

theorem mergeAll_eq_none {m : GoMap Str (List Transition)} {xs : List (Str × List Transition)} {k : Str} :
    GoMap.get? (mergeAll m xs) k = none ↔ GoMap.get? m k = none ∧ k ∉ xs.map (·.1) := by
  rw [get?_mergeAll]
  split
  · simp_all
  · rename_i h; simp only [reduceCtorEq, false_iff]; exact h

/-! ### aggregates -/

/-- The explicit aggregation of (state ID, transition set) pairs. -/
def aggGroup (xs : List (Str × TSet)) : List AggregateSet :=
  (firstUses (xs.map (·.2.channel))).map fun c =>
    ⟨c, mergeAll [] ((xs.filter (fun x => x.2.channel = c)).map (fun x => (x.1, x.2.transitions)))⟩

theorem addToAggregateSets_map (L : List Channel) (hL : L.Nodup) (g : Channel → GoMap Str (List Transition)) (sid : Str)
    (s : TSet) :
    addToAggregateSets (L.map fun d => ⟨d, g d⟩) sid s =
      if s.channel ∈ L then L.map fun d => ⟨d, if d = s.channel then mergeAdd (g d) (sid, s.transitions) else g d⟩
      else (L.map fun d => ⟨d, g d⟩) ++ [⟨s.channel, [(sid, s.transitions)]⟩] := by
  induction L with
  | nil => simp [addToAggregateSets]
  | cons d L ih =>
    rw [List.nodup_cons] at hL
    simp only [List.map_cons, addToAggregateSets, C09_channel_equals]
    by_cases e : d = s.channel
    · simp only [e, if_true, List.mem_cons, true_or]
      congr 1
      apply List.map_congr_left
      intro x hx
      have : x ≠ s.channel := fun h => hL.1 (e ▸ h ▸ hx)
      simp [this]
    · have e' : ¬ s.channel = d := fun h => e h.symm
      rw [if_neg e, ih hL.2]
      simp only [List.mem_cons, e', false_or]
      by_cases h : s.channel ∈ L
      · simp [h, e]
      · simp [h]

theorem addToAggregateSets_group (xs : List (Str × TSet)) (sid : Str) (s : TSet) :
    addToAggregateSets (aggGroup xs) sid s = aggGroup (xs ++ [(sid, s)]) := by
  unfold aggGroup
  rw [addToAggregateSets_map _ (firstUses_nodup _)]
  simp only [mem_firstUses, List.map_append, List.map_cons, List.map_nil, firstUses_concat]
  split
  · rename_i h
    apply List.map_congr_left
    intro d _
    by_cases e : d = s.channel
    · subst e; simp [mergeAll_append, mergeAll]
    · have : ¬ s.channel = d := fun h => e h.symm
      simp [e, this]
  · rename_i h
    rw [List.map_append]
    congr 1
    · apply List.map_congr_left
      intro d hd
      have : ¬ s.channel = d := by rintro rfl; exact h (mem_firstUses.1 hd)
      simp [this]
    · have : xs.filter (fun a => a.2.channel = s.channel) = [] := by
        rw [List.filter_eq_nil_iff]
        intro a ha
        simp only [decide_eq_true_eq]
        intro e
        exact h (e ▸ List.mem_map_of_mem (f := fun x : Str × TSet => x.2.channel) ha)
      simp [this, mergeAll, mergeAdd, GoMap.set, GoMap.get?]

theorem foldl_addToAggregateSets (xs pre : List (Str × TSet)) :
    xs.foldl (fun r x => addToAggregateSets r x.1 x.2) (aggGroup pre) = aggGroup (pre ++ xs) := by
  induction xs generalizing pre with
  | nil => simp
  | cons a xs ih => rw [List.foldl_cons, addToAggregateSets_group, ih]; simp

/-- All (state ID, transition set) pairs of a machine. -/
def pairsOf (m : Stm) : List (Str × TSet) := m.states.flatMap fun st => st.transitionSets.map fun ts => (st.id, ts)

theorem aggregates_eq (m : Stm) : m.aggregates = aggGroup (pairsOf m) := by
  have key : ∀ (l : List State) (r : List AggregateSet),
      l.foldl (fun result st => st.transitionSets.foldl (fun result ts => addToAggregateSets result st.id ts) result) r =
        (l.flatMap fun st => st.transitionSets.map fun ts => (st.id, ts)).foldl (fun r x => addToAggregateSets r x.1 x.2) r := by
    intro l
    induction l with
    | nil => intro r; rfl
    | cons s l ih => intro r; rw [List.foldl_cons, ih, List.flatMap_cons, List.foldl_append, List.foldl_map]
  unfold Stm.aggregates
  rw [key]
  have := foldl_addToAggregateSets (pairsOf m) []
  rw [List.nil_append] at this
  exact this

theorem pairsOf_channels (m : Stm) :
    (pairsOf m).map (·.2.channel) = m.states.flatMap fun s => s.transitionSets.map (·.channel) := by
  unfold pairsOf
  rw [List.map_flatMap]
  simp [Function.comp_def]

theorem pairsOf_on (m : Stm) (c : Channel) (sid : Str) :
    ((((pairsOf m).filter (fun x => x.2.channel = c)).map (fun x => (x.1, x.2.transitions))).filter (fun x => x.1 = sid)).flatMap (·.2)
      = transitionsOn m c sid := by
  unfold pairsOf transitionsOn
  induction m.states with
  | nil => rfl
  | cons s l ih =>
    rw [List.flatMap_cons, List.filter_append, List.map_append, List.filter_append, List.flatMap_append, ih]
    by_cases h : s.id = sid
    · rw [List.filter_cons_of_pos (by simpa using h), List.flatMap_cons]
      congr 1
      induction s.transitionSets with
      | nil => rfl
      | cons t ts ih => by_cases ht : t.channel = c <;> simp_all
    · rw [List.filter_cons_of_neg (by simpa using h)]
      have : (((s.transitionSets.map fun ts => (s.id, ts)).filter (fun x => x.2.channel = c)).map
          (fun x => (x.1, x.2.transitions))).filter (fun x => x.1 = sid) = [] := by
        rw [List.filter_eq_nil_iff]
        intro a ha
        simp only [List.mem_map, List.mem_filter] at ha
        obtain ⟨b, ⟨⟨b', _, rfl⟩, _⟩, rfl⟩ := ha
        simpa using h
      rw [this]; rfl

theorem agg_get? (m : Stm) (c : Channel) (sid : Str) :
    (GoMap.get? (mergeAll [] (((pairsOf m).filter (fun x => x.2.channel = c)).map (fun x => (x.1, x.2.transitions)))) sid = none ↔
      ¬ ∃ s ∈ m.states, s.id = sid ∧ ∃ ts ∈ s.transitionSets, ts.channel = c) ∧
    ∀ l, GoMap.get? (mergeAll [] (((pairsOf m).filter (fun x => x.2.channel = c)).map (fun x => (x.1, x.2.transitions)))) sid = some l →
      l = transitionsOn m c sid := by
  constructor
  · rw [mergeAll_eq_none]
    simp only [GoMap.get?, true_and]
    apply not_congr
    unfold pairsOf
    simp only [List.mem_map, List.mem_filter, List.mem_flatMap, decide_eq_true_eq]
    constructor
    · rintro ⟨_, ⟨⟨a, b⟩, ⟨⟨s, hs, ts, hts, e⟩, hc⟩, rfl⟩, rfl⟩
      cases e
      exact ⟨s, hs, rfl, b, hts, hc⟩
    · rintro ⟨s, hs, rfl, ts, hts, hc⟩
      exact ⟨_, ⟨(s.id, ts), ⟨⟨s, hs, ts, hts, rfl⟩, hc⟩, rfl⟩, rfl⟩
  · intro l hl
    rw [get?_mergeAll] at hl
    split at hl
    · cases hl
    · rw [pairsOf_on] at hl
      simpa [GoMap.get?] using hl.symm

/-! ### the template context -/

theorem populate_fold (l : List AggregateSet) (c : TransitionContext) :
    l.foldl (fun c tra =>
      let c := { c with channels := c.channels ++ [tra.channel] }
      if tra.channel.isIn then c.addInput tra else { c with out := c.out ++ [tra] }) c =
    { c with
      channels := c.channels ++ l.map (·.channel)
      in_ := c.in_ ++ l.filter (·.channel.isIn)
      out := c.out ++ l.filter (fun a => !a.channel.isIn)
      hasIn := c.hasIn || l.any (·.channel.isIn)
      inMerged := mergeAll c.inMerged ((l.filter (·.channel.isIn)).flatMap (·.states)) } := by
  induction l generalizing c with
  | nil => simp [mergeAll]
  | cons a l ih =>
    rw [List.foldl_cons, ih]
    cases h : a.channel.isIn
    · simp [h]
    · simp only [h, if_true, TransitionContext.addInput, List.filter_cons_of_pos, List.flatMap_cons, mergeAll_append]
      simp [h]
      rfl

theorem flatMap_filter_flatMap {α β : Type} (p : α → Bool) (f : α → List β) (q : β → Bool) (l : List α) :
    ((l.filter p).flatMap f).filter q = (l.filter p).flatMap (fun a => (f a).filter q) := by
  rw [List.filter_flatMap]

/-- Regrouping by channel loses nothing. -/
theorem regroup_perm {β : Type} (L : List Channel) (hL : L.Nodup) (ys : List (Channel × List β)) :
    (L.flatMap fun c => (ys.filter (fun y => y.1 = c)).flatMap (·.2)).Perm ((ys.filter (fun y => y.1 ∈ L)).flatMap (·.2)) := by
  induction L with
  | nil => simp
  | cons c L ih =>
    rw [List.nodup_cons] at hL
    rw [List.flatMap_cons]
    refine (List.Perm.append_left _ (ih hL.2)).trans ?_
    clear ih
    induction ys with
    | nil => simp
    | cons y ys ih =>
      by_cases e : y.1 = c
      · have : y.1 ∉ L := e ▸ hL.1
        have : c ∉ L := hL.1
        simp_all
        exact List.Perm.append_left _ ih
      · by_cases h : y.1 ∈ L
        · rw [List.filter_cons_of_neg (by simpa using e), List.filter_cons_of_pos (by simpa using h),
            List.filter_cons_of_pos (by simp [h]), List.flatMap_cons, List.flatMap_cons]
          refine List.Perm.trans ?_ (List.Perm.append_left y.2 ih)
          rw [← List.append_assoc, ← List.append_assoc]
          exact List.Perm.append_right _ List.perm_append_comm
        · simpa [e, h] using ih

theorem filter_key {α : Type} {m : GoMap Str α} (hm : GoMap.WF m) (k : Str) :
    m.filter (fun x => x.1 = k) = (GoMap.get? m k).toList.map (fun v => (k, v)) := by
  induction m with
  | nil => rfl
  | cons p m ih =>
    obtain ⟨k', v⟩ := p
    have hm' : GoMap.WF m := by unfold GoMap.WF at hm ⊢; rw [List.map_cons, List.nodup_cons] at hm; exact hm.2
    by_cases e : k' = k
    · subst e
      rw [List.filter_cons_of_pos (by simp)]
      have : m.filter (fun x => x.1 = k') = [] := by
        rw [List.filter_eq_nil_iff]
        intro a ha
        simp only [decide_eq_true_eq]
        rintro rfl
        unfold GoMap.WF at hm
        rw [List.map_cons, List.nodup_cons] at hm
        exact hm.1 (List.mem_map_of_mem (f := (·.1)) ha)
      rw [this]
      simp [GoMap.get?]
    · rw [List.filter_cons_of_neg (by simpa using e), ih hm', GoMap.get?, if_neg e]

theorem merged_get? (l : List AggregateSet) (hl : ∀ a ∈ l, GoMap.WF a.states) (sid : Str) :
    GoMap.get? (mergeAll [] (l.flatMap (·.states))) sid =
      if ∀ a ∈ l, GoMap.get? a.states sid = none then none
      else some (l.flatMap fun a => (GoMap.get? a.states sid).getD []) := by
  rw [get?_mergeAll]
  have h1 : ((GoMap.get? ([] : GoMap Str (List Transition)) sid) = none ∧ sid ∉ (l.flatMap (·.states)).map (·.1)) ↔
      ∀ a ∈ l, GoMap.get? a.states sid = none := by
    simp only [GoMap.get?_eq_none_iff, GoMap.keys, List.map_flatMap, List.mem_flatMap]
    simp
  have h2 : ((l.flatMap (·.states)).filter (fun x => x.1 = sid)).flatMap (·.2) =
      l.flatMap fun a => (GoMap.get? a.states sid).getD [] := by
    clear h1
    induction l with
    | nil => rfl
    | cons a l ih =>
      rw [List.flatMap_cons, List.filter_append, List.flatMap_append, ih (fun b hb => hl b (by simp [hb])), List.flatMap_cons,
        filter_key (hl a (by simp))]
      congr 1
      cases GoMap.get? a.states sid <;> simp
  rw [h2]
  simp only [h1]
  simp [GoMap.get?]

end Rtcg
