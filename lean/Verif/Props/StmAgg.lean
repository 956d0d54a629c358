import Verif.Proofs.StmAgg
import Verif.Props.Tree
import Verif.Props.Stm

/-
C37–C40: grouping transitions, aggregates, the template context, verdict queries.
-/

namespace Rtcg

open Spec

/-! ### C37 -/

/-- Adding transitions one at a time to no sets gives their grouping by channel: one set per channel, in order of first use,
with the transitions of that channel in the order added. -/
theorem C37_grouping (adds : List (Channel × Transition)) :
    Grouped adds (adds.foldl (fun sets a => addToSets sets a.1 a.2) []) := by
  have := foldl_addToSets adds []
  rw [List.nil_append] at this
  have e : group [] = [] := rfl
  rw [e] at this
  rw [this]
  exact grouped_group adds

/-- At most one set per channel, and no transition appears from nowhere or is lost. -/
theorem C37_unique (adds : List (Channel × Transition)) :
    ((adds.foldl (fun sets a => addToSets sets a.1 a.2) []).map (·.channel)).Nodup ∧
    ∀ c t, (∃ s ∈ adds.foldl (fun sets a => addToSets sets a.1 a.2) [], s.channel = c ∧ t ∈ s.transitions) ↔ (c, t) ∈ adds := by
  obtain ⟨h1, h2⟩ := C37_grouping adds
  refine ⟨by rw [h1]; exact firstUses_nodup _, fun c t => ⟨?_, ?_⟩⟩
  · rintro ⟨s, hs, rfl, ht⟩
    rw [h2 s hs] at ht
    simp only [List.mem_map, List.mem_filter, decide_eq_true_eq] at ht
    obtain ⟨⟨a, b⟩, ⟨hm, rfl⟩, rfl⟩ := ht
    exact hm
  · intro hm
    have hc : c ∈ (adds.foldl (fun sets a => addToSets sets a.1 a.2) []).map (·.channel) := by
      rw [h1, mem_firstUses]; exact List.mem_map_of_mem (f := (·.1)) hm
    obtain ⟨s, hs, rfl⟩ := List.mem_map.1 hc
    refine ⟨s, hs, rfl, ?_⟩
    rw [h2 s hs]
    simp only [List.mem_map, List.mem_filter, decide_eq_true_eq]
    exact ⟨(s.channel, t), ⟨hm, rfl⟩, rfl⟩

example (a b : Channel) (h : a ≠ b) (t u v : Transition) :
    [(a, t), (b, u), (a, v)].foldl (fun sets x => addToSets sets x.1 x.2) [] = [⟨a, [t, v]⟩, ⟨b, [u]⟩] := by
  simp [addToSets, C09_channel_equals, h]

/-! ### C38 -/

/-- One aggregate per channel used anywhere, in order of first use; each maps exactly the IDs of states with a set on that
channel, to the concatenation of those states' transitions on the channel. -/
theorem C38_aggregates (m : Stm) :
    m.aggregates.map (·.channel) = firstUses (m.states.flatMap fun s => s.transitionSets.map (·.channel)) ∧
    ∀ a ∈ m.aggregates, GoMap.WF a.states ∧ ∀ sid,
      (a.states.get? sid = none ↔ ¬ ∃ s ∈ m.states, s.id = sid ∧ ∃ ts ∈ s.transitionSets, ts.channel = a.channel) ∧
      ∀ l, a.states.get? sid = some l → l = transitionsOn m a.channel sid := by
  rw [aggregates_eq, ← pairsOf_channels]
  constructor
  · simp [aggGroup, Function.comp_def]
  · intro a ha
    obtain ⟨c, _, rfl⟩ := List.mem_map.1 ha
    exact ⟨mergeAll_wf GoMap.wf_nil _, fun sid => agg_get? m c sid⟩

/-- Reading a transition off the aggregates is reading it off the states. -/
theorem C38_complete (m : Stm) (c : Channel) (sid : Str) (t : Transition) :
    (∃ a ∈ m.aggregates, a.channel = c ∧ ∃ l, a.states.get? sid = some l ∧ t ∈ l) ↔
    ∃ s ∈ m.states, s.id = sid ∧ ∃ ts ∈ s.transitionSets, ts.channel = c ∧ t ∈ ts.transitions := by
  obtain ⟨h1, h2⟩ := C38_aggregates m
  have hon : t ∈ transitionsOn m c sid ↔
      ∃ s ∈ m.states, s.id = sid ∧ ∃ ts ∈ s.transitionSets, ts.channel = c ∧ t ∈ ts.transitions := by
    unfold transitionsOn
    simp only [List.mem_flatMap, List.mem_filter, decide_eq_true_eq]
    constructor
    · rintro ⟨s, ⟨hs, rfl⟩, ts, ⟨hts, rfl⟩, ht⟩; exact ⟨s, hs, rfl, ts, hts, rfl, ht⟩
    · rintro ⟨s, hs, rfl, ts, hts, rfl, ht⟩; exact ⟨s, ⟨hs, rfl⟩, ts, ⟨hts, rfl⟩, ht⟩
  rw [← hon]
  constructor
  · rintro ⟨a, ha, rfl, l, hl, ht⟩
    rw [← ((h2 a ha).2 sid).2 l hl]; exact ht
  · intro ht
    obtain ⟨s, hs, rfl, ts, hts, rfl, _⟩ := hon.1 ht
    have hc : ts.channel ∈ m.aggregates.map (·.channel) := by
      rw [h1, mem_firstUses]
      exact List.mem_flatMap.2 ⟨s, hs, List.mem_map_of_mem (f := (·.channel)) hts⟩
    obtain ⟨a, ha, hac⟩ := List.mem_map.1 hc
    refine ⟨a, ha, hac, ?_⟩
    cases hg : GoMap.get? a.states s.id with
    | none => exact absurd ⟨s, hs, rfl, ts, hts, hac.symm⟩ (((h2 a ha).2 s.id).1.1 hg)
    | some l =>
      refine ⟨l, rfl, ?_⟩
      rw [((h2 a ha).2 s.id).2 l hg, hac]; exact ht

/-! ### C39 -/

theorem isIn_eq (c : Channel) : c.isIn = decide (c.kind = kIn) := rfl

theorem make_eq (m : Stm) :
    TransitionContext.make m =
      { channels := m.aggregates.map (·.channel)
        all := m.aggregates
        in_ := m.aggregates.filter (·.channel.isIn)
        out := m.aggregates.filter (fun a => !a.channel.isIn)
        inMerged := mergeAll [] ((m.aggregates.filter (·.channel.isIn)).flatMap (·.states))
        hasIn := m.aggregates.any (·.channel.isIn)
        firstStateHasIn := TransitionContext.firstHasIn m } := by
  unfold TransitionContext.make TransitionContext.populateFilters
  rw [populate_fold]
  simp

/-- In holds the aggregates of input channels and Out all others (in particular those of calls), in order; Channels lists all
their channels. -/
theorem C39_partition (m : Stm) :
    (TransitionContext.make m).all = m.aggregates ∧
    (TransitionContext.make m).channels = m.aggregates.map (·.channel) ∧
    (TransitionContext.make m).in_ = m.aggregates.filter (fun a => a.channel.kind = kIn) ∧
    (TransitionContext.make m).out = m.aggregates.filter (fun a => a.channel.kind ≠ kIn) := by
  rw [make_eq]
  exact ⟨rfl, rfl, rfl, by simp [isIn_eq]⟩

/-- HasIn says whether there is an input channel at all, i.e. whether some state has an input transition set. -/
theorem C39_hasIn (m : Stm) :
    ((TransitionContext.make m).hasIn = true ↔ (TransitionContext.make m).in_ ≠ []) ∧
    ((TransitionContext.make m).hasIn = true ↔ ∃ s ∈ m.states, ∃ ts ∈ s.transitionSets, ts.channel.kind = kIn) := by
  rw [make_eq]
  have h1 := (C38_aggregates m).1
  have e : (m.aggregates.any (·.channel.isIn)) = true ↔ ∃ c ∈ m.aggregates.map (·.channel), c.kind = kIn := by
    simp [isIn_eq]
  refine ⟨?_, ?_⟩
  · simp [List.filter_eq_nil_iff]
  · simp only
    rw [e, h1]
    simp only [mem_firstUses, List.mem_flatMap, List.mem_map]
    constructor
    · rintro ⟨_, ⟨s, hs, ts, hts, rfl⟩, h⟩; exact ⟨s, hs, ts, hts, h⟩
    · rintro ⟨s, hs, ts, hts, h⟩; exact ⟨_, ⟨s, hs, ts, hts, rfl⟩, h⟩

/-- FirstStateHasIn says whether the first state has an input transition set. -/
theorem C39_firstStateHasIn (m : Stm) :
    (TransitionContext.make m).firstStateHasIn = true ↔
      ∃ s, m.states.head? = some s ∧ ∃ ts ∈ s.transitionSets, ts.channel.kind = kIn := by
  rw [make_eq]
  unfold TransitionContext.firstHasIn
  cases m.states with
  | nil => simp
  | cons s l => simp [isIn_eq]

theorem inMerged_get? (m : Stm) (sid : Str) :
    (GoMap.get? (TransitionContext.make m).inMerged sid = none ↔
      ¬ ∃ s ∈ m.states, s.id = sid ∧ ∃ ts ∈ s.transitionSets, ts.channel.kind = kIn) ∧
    ∀ l, GoMap.get? (TransitionContext.make m).inMerged sid = some l →
      l = ((TransitionContext.make m).channels.filter (fun c => c.kind = kIn)).flatMap (fun c => transitionsOn m c sid) := by
  rw [make_eq]
  obtain ⟨h1, h2⟩ := C38_aggregates m
  simp only
  rw [merged_get? _ (fun a ha => (h2 a (List.mem_filter.1 ha).1).1)]
  constructor
  · have : (∀ a ∈ m.aggregates.filter (·.channel.isIn), GoMap.get? a.states sid = none) ↔
        ¬ ∃ s ∈ m.states, s.id = sid ∧ ∃ ts ∈ s.transitionSets, ts.channel.kind = kIn := by
      constructor
      · rintro h ⟨s, hs, hid, ts, hts, hk⟩
        have hc : ts.channel ∈ m.aggregates.map (·.channel) := by
          rw [h1, mem_firstUses]
          exact List.mem_flatMap.2 ⟨s, hs, List.mem_map_of_mem (f := (·.channel)) hts⟩
        obtain ⟨a, ha, hac⟩ := List.mem_map.1 hc
        have := h a (List.mem_filter.2 ⟨ha, by rw [hac]; simpa [isIn_eq] using hk⟩)
        exact (((h2 a ha).2 sid).1.1 this) ⟨s, hs, hid, ts, hts, hac.symm⟩
      · intro h a ha
        obtain ⟨ha, hk⟩ := List.mem_filter.1 ha
        rw [((h2 a ha).2 sid).1]
        rintro ⟨s, hs, hid, ts, hts, hc⟩
        exact h ⟨s, hs, hid, ts, hts, by rw [hc]; simpa [isIn_eq] using hk⟩
    rw [← this]
    split
    · rename_i h; exact ⟨fun _ => h, fun _ => rfl⟩
    · rename_i h; exact ⟨by simp, fun h' => absurd h' h⟩
  · intro l hl
    split at hl
    · cases hl
    · rw [Option.some.injEq] at hl
      subst hl
      have e : ((m.aggregates.map (·.channel)).filter (fun c => c.kind = kIn)) =
          (m.aggregates.filter (·.channel.isIn)).map (·.channel) := by
        rw [List.filter_map]; rfl
      rw [e, List.flatMap_map]
      have key : ∀ a ∈ m.aggregates.filter (·.channel.isIn), (GoMap.get? a.states sid).getD [] = transitionsOn m a.channel sid := by
        intro a ha
        obtain ⟨ha, hk⟩ := List.mem_filter.1 ha
        cases hg : GoMap.get? a.states sid with
        | some l => exact ((h2 a ha).2 sid).2 l hg
        | none =>
          have hno := ((h2 a ha).2 sid).1.1 hg
          symm
          simp only [Option.getD_none, transitionsOn, List.flatMap_eq_nil_iff, List.mem_filter, decide_eq_true_eq]
          intro s hs ts hts
          exact absurd ⟨s, hs.1, hs.2, ts, hts.1, hts.2⟩ hno
      exact List.flatMap_congr key

/-- InMerged maps exactly the IDs of states with an input transition set, to all input transitions of those states: channel
by channel in order of first use, hence a rearrangement of the machine's own order (and in that very order when a state has one
input set, as in machines built from valid traces). -/
theorem C39_inMerged (m : Stm) (sid : Str) :
    (GoMap.get? (TransitionContext.make m).inMerged sid = none ↔
      ¬ ∃ s ∈ m.states, s.id = sid ∧ ∃ ts ∈ s.transitionSets, ts.channel.kind = kIn) ∧
    ∀ l, GoMap.get? (TransitionContext.make m).inMerged sid = some l →
      l = ((TransitionContext.make m).channels.filter (fun c => c.kind = kIn)).flatMap (fun c => transitionsOn m c sid) ∧
      l.Perm (inputsAt m sid) := by
  obtain ⟨h1, h2⟩ := inMerged_get? m sid
  refine ⟨h1, fun l hl => ⟨h2 l hl, ?_⟩⟩
  rw [h2 l hl]
  have hch : (TransitionContext.make m).channels = firstUses (m.states.flatMap fun s => s.transitionSets.map (·.channel)) := by
    rw [make_eq]; exact (C38_aggregates m).1
  rw [hch]
  have hnd := (firstUses_nodup (m.states.flatMap fun s => s.transitionSets.map (·.channel))).filter (fun c => decide (c.kind = kIn))
  have hp := regroup_perm _ hnd ((m.states.filter (fun s => s.id = sid)).flatMap fun s =>
    s.transitionSets.map fun ts => (ts.channel, ts.transitions))
  have e1 : ∀ c, (((m.states.filter (fun s => s.id = sid)).flatMap fun s =>
      s.transitionSets.map fun ts => (ts.channel, ts.transitions)).filter (fun y => y.1 = c)).flatMap (·.2) = transitionsOn m c sid := by
    intro c
    unfold transitionsOn
    rw [List.filter_flatMap, List.flatMap_assoc]
    apply List.flatMap_congr
    intro s _
    rw [List.filter_map, List.flatMap_map]; rfl
  simp only [e1] at hp
  refine hp.trans ?_
  rw [List.filter_flatMap, List.flatMap_assoc]
  unfold inputsAt
  have : ∀ s ∈ m.states.filter (fun s => s.id = sid),
      ((s.transitionSets.map fun ts => (ts.channel, ts.transitions)).filter (fun y => decide (y.1 ∈
        (firstUses (m.states.flatMap fun s => s.transitionSets.map (·.channel))).filter (fun c => decide (c.kind = kIn))))).flatMap (·.2)
      = (s.transitionSets.filter (fun ts => ts.channel.kind = kIn)).flatMap (·.transitions) := by
    intro s hs
    rw [List.filter_map, List.flatMap_map]
    congr 1
    apply List.filter_congr
    intro ts hts
    simp only [Function.comp, List.mem_filter, mem_firstUses, decide_eq_true_eq, decide_eq_decide]
    constructor
    · exact fun h => h.2
    · exact fun h => ⟨List.mem_flatMap.2 ⟨s, (List.mem_filter.1 hs).1, List.mem_map_of_mem (f := (·.channel)) hts⟩, h⟩
  rw [List.flatMap_congr this]

/-- The orders in which the state maps are visited do not matter: aggregates with the same channels and the same maps in other
orders give the same merged map. -/
theorem C39_order (c : TransitionContext) (l l' : List AggregateSet) (hl : ∀ a ∈ l, GoMap.WF a.states)
    (h : List.Forall₂ (fun a a' : AggregateSet => a.channel = a'.channel ∧ a.states.Perm a'.states) l l') :
    GoMap.Equiv (TransitionContext.populateFilters { c with all := l, inMerged := [] }).inMerged
      (TransitionContext.populateFilters { c with all := l', inMerged := [] }).inMerged := by
  unfold TransitionContext.populateFilters
  rw [populate_fold, populate_fold]
  simp only
  have hf : List.Forall₂ (fun a a' : AggregateSet => a.states.Perm a'.states)
      (l.filter (·.channel.isIn)) (l'.filter (·.channel.isIn)) := by
    induction h with
    | nil => exact .nil
    | @cons a a' _ _ h _ ih =>
      have := ih (fun b hb => hl b (by simp [hb]))
      cases hk : a.channel.isIn with
      | true =>
        rw [List.filter_cons_of_pos (by simpa using hk), List.filter_cons_of_pos (by rw [← h.1]; simpa using hk)]
        exact .cons h.2 this
      | false =>
        rw [List.filter_cons_of_neg (by simp [hk]), List.filter_cons_of_neg (by rw [← h.1]; simp [hk])]
        exact this
  have hl1 : ∀ a ∈ l.filter (·.channel.isIn), GoMap.WF a.states := fun a ha => hl a (List.mem_filter.1 ha).1
  generalize l.filter (·.channel.isIn) = x at hf hl1
  generalize l'.filter (·.channel.isIn) = y at hf
  have hl2 : ∀ a ∈ y, GoMap.WF a.states := by
    intro a ha
    induction hf with
    | nil => simp at ha
    | @cons a b _ _ h _ ih =>
      rcases List.mem_cons.1 ha with rfl | ha
      · exact (h.map _).nodup_iff.1 (hl1 a (by simp))
      · exact ih (fun b hb => hl1 b (by simp [hb])) ha
  intro sid
  rw [merged_get? x hl1, merged_get? y hl2]
  have e : x.map (fun a => GoMap.get? a.states sid) = y.map (fun a => GoMap.get? a.states sid) := by
    clear hl2
    induction hf with
    | nil => rfl
    | @cons a b _ _ h _ ih =>
      rw [List.map_cons, List.map_cons, ih (fun b hb => hl1 b (by simp [hb])), GoMap.get?_perm (hl1 a (by simp)) h]
  have e1 : (∀ a ∈ x, GoMap.get? a.states sid = none) ↔ ∀ a ∈ y, GoMap.get? a.states sid = none := by
    have : ∀ l : List AggregateSet, (∀ a ∈ l, GoMap.get? a.states sid = none) ↔
        ∀ o ∈ l.map (fun a => GoMap.get? a.states sid), o = none := by simp
    rw [this, this, e]
  have e2 : (x.flatMap fun a => (GoMap.get? a.states sid).getD []) = y.flatMap fun a => (GoMap.get? a.states sid).getD [] := by
    have : ∀ l : List AggregateSet, (l.flatMap fun a => (GoMap.get? a.states sid).getD []) =
        (l.map (fun a => GoMap.get? a.states sid)).flatMap (·.getD []) := by intro l; rw [List.flatMap_map]
    rw [this, this, e]
  simp only [e1, e2]

/-! ### C40 -/

theorem is_iff (v : Verdict) (o : Outcome) : v.is o = true ↔ ∃ t, (t, o) ∈ v := by
  induction v with
  | nil => simp [Verdict.is]
  | cons p v ih =>
    obtain ⟨t, s⟩ := p
    unfold Verdict.is
    by_cases h : s = o
    · subst h; simp
    · have h' : ¬ o = s := fun e => h e.symm
      simp [h, h', ih]

/-- Is(o) holds exactly when some test has outcome o. -/
theorem C40_is (v : Verdict) (hv : GoMap.WF v) (o : Outcome) :
    v.is o = true ↔ ∃ t, GoMap.get? v t = some o := by
  rw [is_iff]
  simp only [GoMap.get?_eq_some_iff hv]

/-- SetOf(o) is exactly the set of tests with outcome o, each listed once. -/
theorem C40_setOf (v : Verdict) (hv : GoMap.WF v) (o : Outcome) :
    (GoSet.values (v.setOf o)).Nodup ∧ ∀ t, t ∈ GoSet.values (v.setOf o) ↔ GoMap.get? v t = some o := by
  have key : ∀ (l : List (Str × Outcome)) (s : GoSet Str), GoMap.WF s → (∀ p ∈ s, p.2 = true) →
      let r := l.foldl (fun tests ks => if ks.2 = o then GoSet.add tests [ks.1] else tests) s
      GoMap.WF r ∧ (∀ p ∈ r, p.2 = true) ∧ ∀ t, t ∈ r.map (·.1) ↔ t ∈ s.map (·.1) ∨ (t, o) ∈ l := by
    intro l
    induction l with
    | nil => intro s h1 h2; exact ⟨h1, h2, by simp⟩
    | cons p l ih =>
      intro s h1 h2
      obtain ⟨t, s'⟩ := p
      rw [List.foldl_cons]
      by_cases h : s' = o
      · subst h
        obtain ⟨a1, a2, a3⟩ := goSet_add_facts s h1 h2 [t]
        rw [if_pos rfl]
        obtain ⟨b1, b2, b3⟩ := ih _ a1 a2
        refine ⟨b1, b2, fun x => ?_⟩
        rw [b3, a3]; simp [or_assoc]
      · rw [if_neg h]
        obtain ⟨b1, b2, b3⟩ := ih s h1 h2
        refine ⟨b1, b2, fun x => ?_⟩
        have h' : ¬ o = s' := fun e => h e.symm
        rw [b3]; simp [h']
  obtain ⟨h1, h2, h3⟩ := key v [] GoMap.wf_nil (by simp)
  have e : v.setOf o = v.foldl (fun tests ks => if ks.2 = o then GoSet.add tests [ks.1] else tests) [] := rfl
  rw [e, goSet_values_eq _ h2]
  refine ⟨h1, fun t => ?_⟩
  rw [h3, GoMap.get?_eq_some_iff hv]; simp

/-- Tests lists the covered tests, each once, in ascending order. -/
theorem C40_tests (v : Verdict) (hv : GoMap.WF v) :
    v.tests.Pairwise (· < ·) ∧ ∀ t, t ∈ v.tests ↔ ∃ o, GoMap.get? v t = some o := by
  have hp : v.tests.Perm v.keys := List.mergeSort_perm _ _
  have hs : v.tests.Pairwise (fun a b => decide (a ≤ b) = true) := by
    apply List.pairwise_mergeSort
    · intro a b c h1 h2
      simp only [decide_eq_true_eq] at *
      exact List.le_trans h1 h2
    · intro a b
      simp only [Bool.or_eq_true, decide_eq_true_eq]
      exact List.le_total a b
  have hn : v.tests.Nodup := hp.nodup_iff.2 hv
  constructor
  · have := hs.and hn
    refine this.imp ?_
    rintro a b ⟨h1, h2⟩
    simp only [decide_eq_true_eq] at h1
    by_contra hlt
    exact h2 (List.le_antisymm h1 (List.not_lt.1 hlt))
  · intro t
    rw [hp.mem_iff]
    have := GoMap.get?_eq_none_iff (m := v) (k := t)
    cases h : GoMap.get? v t with
    | none => simp [this.1 h]
    | some o =>
      simp only [Option.some.injEq, exists_eq', iff_true]
      by_contra hc
      rw [this.2 hc] at h; cases h

/-- None of the three depends on the order in which the map is visited. -/
theorem C40_order (v v' : Verdict) (hv : GoMap.WF v) (hp : v.Perm v') (o : Outcome) :
    v.is o = v'.is o ∧ v.tests = v'.tests ∧ (GoSet.values (v.setOf o)).Perm (GoSet.values (v'.setOf o)) := by
  have hv' : GoMap.WF v' := (hp.map _).nodup_iff.1 hv
  refine ⟨?_, ?_, ?_⟩
  · rw [Bool.eq_iff_iff, is_iff, is_iff]
    simp only [hp.mem_iff]
  · obtain ⟨s1, m1⟩ := C40_tests v hv
    obtain ⟨s2, m2⟩ := C40_tests v' hv'
    have hperm : v.tests.Perm v'.tests :=
      (List.mergeSort_perm _ _).trans ((hp.map _).trans (List.mergeSort_perm _ _).symm)
    exact hperm.eq_of_pairwise (fun a b _ _ h1 h2 => absurd (List.lt_trans h1 h2) (List.lt_irrefl a)) s1 s2
  · obtain ⟨n1, m1⟩ := C40_setOf v hv o
    obtain ⟨n2, m2⟩ := C40_setOf v' hv' o
    rw [List.perm_ext_iff_of_nodup n1 n2]
    intro t
    rw [m1, m2, GoMap.get?_perm hv hp]

/-- Adding tests with an outcome overrides exactly those tests. -/
theorem C40_add (v : Verdict) (o : Outcome) (ts : List Str) (t : Str) :
    GoMap.get? (v.add o ts) t = if t ∈ ts then some o else GoMap.get? v t := verdict_get?_add v o ts t

example : let v : Verdict := [(c!"b", oFail), (c!"a", oPass)]
    v.tests = [c!"a", c!"b"] ∧ v.is oFail = true ∧ v.is oInc = false ∧ GoSet.values (v.setOf oPass) = [c!"a"] := by
  refine ⟨?_, by decide, by decide, by decide⟩
  have : ¬ (['b'] : Str) ≤ ['a'] := by decide
  simp [Verdict.tests, GoMap.keys, List.mergeSort, List.MergeSort.Internal.splitInTwo, List.merge, this]

/-- A machine with an input and an output channel. -/
def exAgg : Stm :=
  let i : Channel := ⟨c!"cmd", Kind.in_⟩
  let o : Channel := ⟨c!"moved", Kind.out⟩
  ⟨[⟨c!"initial", [⟨i, [⟨Value.int 1, c!"step0"⟩]⟩], [(c!"t", oInc)]⟩,
    ⟨c!"step0", [⟨o, [⟨Value.int 2, c!"step1"⟩, ⟨Value.int 3, c!"step2"⟩]⟩], [(c!"t", oPass)]⟩], [], []⟩

example : (TransitionContext.make exAgg).hasIn = true ∧ (TransitionContext.make exAgg).firstStateHasIn = true ∧
    (TransitionContext.make exAgg).in_.length = 1 ∧ (TransitionContext.make exAgg).out.length = 1 ∧
    (TransitionContext.make exAgg).inMerged = [(c!"initial", [⟨Value.int 1, c!"step0"⟩])] := by
  decide

end Rtcg
