import Verif.Proofs.HarnessTrack

/-
Running generated tests: from the labelled tree back to the tree given, and runs with late callbacks.
-/

namespace Rtcg.Harness

open Rtcg Spec

/-! ### the labelled tree and the tree given -/

section Label

variable {ids : Path → Option Str}

theorem child_writeIds (n : Node) (p : Path) (i : Nat) :
    (Builder.writeIds ids p n).next[i]? = (n.next[i]?).map (Builder.writeIds ids (p ++ [i])) := by
  rw [writeIds_eq]; simp

theorem fails_writeIds (n : Node) (p : Path) : Fails (Builder.writeIds ids p n) ↔ Fails n := by
  unfold Fails; simp only [lastOutcome_writeIds]

theorem seenTo_writeIds (n : Node) (p q : Path) : seenTo (Builder.writeIds ids p n) q = seenTo n q := by
  unfold seenTo; rw [eventsTo_writeIds]

theorem mem_next_writeIds (n : Node) (p : Path) (P : Outcome → Option Event → Prop) :
    (∃ k ∈ (Builder.writeIds ids p n).next, P k.outcome k.event) ↔ ∃ k ∈ n.next, P k.outcome k.event := by
  constructor
  · rintro ⟨k, hk, h⟩
    obtain ⟨i, hi⟩ := List.getElem?_of_mem hk
    rw [child_writeIds] at hi
    cases hc : n.next[i]? with
    | none => rw [hc] at hi; cases hi
    | some c =>
      rw [hc] at hi
      simp only [Option.map_some, Option.some.injEq] at hi
      subst hi
      rw [(writeIds_id ids _ c).2.2.1, (writeIds_id ids _ c).2.2.2] at h
      exact ⟨c, List.mem_of_getElem? hc, h⟩
  · rintro ⟨k, hk, h⟩
    obtain ⟨i, hi⟩ := List.getElem?_of_mem hk
    refine ⟨Builder.writeIds ids (p ++ [i]) k, List.mem_of_getElem? (i := i) (by rw [child_writeIds, hi]; rfl), ?_⟩
    rw [(writeIds_id ids _ k).2.2.1, (writeIds_id ids _ k).2.2.2]
    exact h

theorem continues_writeIds (n : Node) (p : Path) (cb : Callback) : Continues (Builder.writeIds ids p n) cb ↔ Continues n cb :=
  mem_next_writeIds n p (fun o e => o ≠ oFail ∧ ∃ e', e = some e' ∧ observed e' = cb)

theorem rootInput_writeIds (n : Node) (p : Path) : RootInput (Builder.writeIds ids p n) ↔ RootInput n :=
  mem_next_writeIds n p (fun o e => o ≠ oFail ∧ ∃ e', e = some e' ∧ e'.channel.kind = kIn)

theorem verdictTo_writeIds (n : Node) (x : Str) (p q : Path) : verdictTo (Builder.writeIds ids p n) x q = verdictTo n x q := by
  induction q generalizing n p with
  | nil => exact lastOutcome_writeIds ids p n x
  | cons i q ih =>
    simp only [verdictTo, child_writeIds, lastOutcome_writeIds]
    cases n.next[i]? with
    | none => rfl
    | some c => simp only [Option.map_some, ih]

theorem offer_writeIds (n : Node) (p : Path) : offer (Builder.writeIds ids p n) = offer n := by
  unfold offer
  simp only [fails_writeIds]
  congr 2
  rw [writeIds_eq]
  simp only
  have : ∀ (l : List Node) (g : Nat → Node → Node), (∀ k c, (g k c).outcome = c.outcome ∧ (g k c).event = c.event) →
      (((l.mapIdx g).filter fun c => c.outcome ≠ oFail).flatMap fun c => c.event.toList) =
        ((l.filter fun c => c.outcome ≠ oFail).flatMap fun c => c.event.toList) := by
    intro l
    induction l with
    | nil => intro g _; rfl
    | cons c l ih =>
      intro g hg
      rw [List.mapIdx_cons]
      have := ih (fun k c => g (k + 1) c) (fun k c => hg (k + 1) c)
      by_cases ht : c.outcome ≠ oFail
      · rw [List.filter_cons_of_pos (by simp [(hg 0 c).1, ht]), List.filter_cons_of_pos (by simp [ht])]
        rw [List.flatMap_cons, List.flatMap_cons, (hg 0 c).2, ← this]
      · rw [List.filter_cons_of_neg (by simpa [(hg 0 c).1] using ht), List.filter_cons_of_neg (by simpa using ht)]
        exact this
  apply this
  intro k c
  exact ⟨(writeIds_id ids _ c).2.2.1, (writeIds_id ids _ c).2.2.2⟩

theorem offersTo_writeIds (n : Node) (p q : Path) : offersTo (Builder.writeIds ids p n) q = offersTo n q := by
  induction q generalizing n p with
  | nil => exact offer_writeIds n p
  | cons i q ih =>
    simp only [offersTo, child_writeIds, offer_writeIds]
    cases n.next[i]? with
    | none => rfl
    | some c => simp only [Option.map_some, ih]

end Label

theorem labelled_at {root : Node} {p : Path} {n : Node} (h : nodeAt root p = some n) :
    nodeAt (labelled root) p = some (Builder.writeIds (finalIds root) p n) := by
  unfold labelled; rw [nodeAt_writeIds, h]; rfl

theorem at_labelled {root : Node} {p : Path} {n : Node} (h : nodeAt (labelled root) p = some n) :
    ∃ n', nodeAt root p = some n' ∧ n = Builder.writeIds (finalIds root) p n' := by
  unfold labelled at h
  rw [nodeAt_writeIds] at h
  cases hn : nodeAt root p with
  | none => rw [hn] at h; cases h
  | some n' => rw [hn] at h; simp at h; exact ⟨n', rfl, h.symm⟩

theorem sees_congr {es es' : List Event} (h : ∀ e, e ∈ es ↔ e ∈ es') : sees es = sees es' := by
  funext cb
  have key : ∀ P : Event → Bool, es.any P = es'.any P := by
    intro P
    rw [Bool.eq_iff_iff, List.any_eq_true, List.any_eq_true]
    simp only [h]
  cases cb <;> simp only [sees, key]

theorem mem_treeEvents_labelled (root : Node) (e : Event) : e ∈ treeEvents (labelled root) ↔ e ∈ treeEvents root := by
  rw [mem_treeEvents, mem_treeEvents]
  constructor
  · rintro ⟨p, n, h, he⟩
    obtain ⟨n', hn', rfl⟩ := at_labelled h
    exact ⟨p, n', hn', by rw [(writeIds_id _ _ n').2.2.2] at he; exact he⟩
  · rintro ⟨p, n, h, he⟩
    exact ⟨p, _, labelled_at h, by rw [(writeIds_id _ _ n).2.2.2]; exact he⟩

theorem sees_labelled (root : Node) : sees (treeEvents (labelled root)) = sees (treeEvents root) :=
  sees_congr (mem_treeEvents_labelled root)

theorem started_labelled (root : Node) (cbs : List Callback) : StartedIn (treeEvents (labelled root)) cbs ↔ StartedIn (treeEvents root) cbs := by
  unfold StartedIn; rw [sees_labelled]

theorem deterministic_labelled {root : Node} (h : Deterministic root) : Deterministic (labelled root) := by
  intro p n hn i j a b e e' ha hb hao hbo hae hbe ho
  obtain ⟨n', hn', rfl⟩ := at_labelled hn
  rw [child_writeIds] at ha hb
  cases ha' : n'.next[i]? with
  | none => rw [ha'] at ha; cases ha
  | some a' =>
    cases hb' : n'.next[j]? with
    | none => rw [hb'] at hb; cases hb
    | some b' =>
      rw [ha'] at ha
      rw [hb'] at hb
      simp only [Option.map_some, Option.some.injEq] at ha hb
      subst ha
      subst hb
      rw [(writeIds_id _ _ a').2.2.1] at hao
      rw [(writeIds_id _ _ b').2.2.1] at hbo
      rw [(writeIds_id _ _ a').2.2.2] at hae
      rw [(writeIds_id _ _ b').2.2.2] at hbe
      exact h p n' hn' i j a' b' e e' ha' hb' hao hbo hae hbe ho

theorem fails_labelled {root : Node} {p : Path} {n n' : Node} (h : nodeAt (labelled root) p = some n) (h' : nodeAt root p = some n') :
    Fails n ↔ Fails n' := by
  rw [labelled_at h'] at h
  simp only [Option.some.injEq] at h
  subst h
  exact fails_writeIds n' p

theorem followed_labelled {root : Node} {seen : List Callback} {p : Path} : Followed (labelled root) seen p ↔ Followed root seen p := by
  have hseen : seenTo (labelled root) p = seenTo root p := seenTo_writeIds root [] p
  constructor
  · rintro ⟨n, hn, ho, hs, ha, hc⟩
    obtain ⟨n', hn', rfl⟩ := at_labelled hn
    refine ⟨n', hn', by rw [(writeIds_id _ _ n').2.2.1] at ho; exact ho, by rw [← hseen]; exact hs, ?_, ?_⟩
    · intro q k hq hne hk
      have := ha q _ hq hne (labelled_at hk)
      rwa [fails_writeIds] at this
    · rw [← hseen]
      simpa only [fails_writeIds, continues_writeIds] using hc
  · rintro ⟨n, hn, ho, hs, ha, hc⟩
    refine ⟨_, labelled_at hn, by rw [(writeIds_id _ _ n).2.2.1]; exact ho, by rw [hseen]; exact hs, ?_, ?_⟩
    · intro q k hq hne hk
      obtain ⟨k', hk', rfl⟩ := at_labelled hk
      rw [fails_writeIds]
      exact ha q k' hq hne hk'
    · rw [hseen]
      simpa only [fails_writeIds, continues_writeIds] using hc

/-! ### following a tree -/

section Tree

variable {T : Node} {m : Stm} (hT : MachineOf T m)

include hT

/-- Further down, more is seen, and it begins with a continuation. -/
theorem seen_further {p r : Path} {n n' : Node} (hn : nodeAt T p = some n) (hn' : nodeAt T (p ++ r) = some n') (ho' : n'.outcome ≠ oFail)
    (hr : r ≠ []) : ∃ cb rest, seenTo T (p ++ r) = seenTo T p ++ cb :: rest ∧ Continues n cb := by
  cases r with
  | nil => exact absurd rfl hr
  | cons j r =>
    rw [seenTo_append hn]
    rw [show p ++ j :: r = p ++ [j] ++ r by simp, nodeAt_append] at hn'
    cases hb : nodeAt T (p ++ [j]) with
    | none => rw [hb] at hn'; cases hn'
    | some b =>
      have hb' := hb
      rw [nodeAt_snoc, hn] at hb
      have hb : n.next[j]? = some b := hb
      have hbo : b.outcome ≠ oFail := by
        intro hf
        have hl := failLeaf_of_wellFormed hT.wf _ b hb' hf
        rw [hb'] at hn'
        cases r with
        | nil => simp [nodeAt] at hn'; subst hn'; exact ho' hf
        | cons x r => simp [nodeAt, hl] at hn'
      obtain ⟨e, he⟩ := (child_ok hT hn hb).2 hbo
      refine ⟨observed e, seenTo b r, ?_, b, List.mem_of_getElem? hb, hbo, e, he, rfl⟩
      simp [seenTo, eventsTo, hb, he]

theorem followed_unique (hd : Deterministic T) {seen : List Callback} {p q : Path} (hp : Followed T seen p) (hq : Followed T seen q) : p = q := by
  have key : ∀ p q, Followed T seen p → Followed T seen q → seenTo T p <+: seenTo T q → p = q := by
    rintro p q ⟨n, hn, ho, hs, ha, hc⟩ ⟨n', hn', ho', hs', ha', hc'⟩ hpq
    obtain ⟨r, rfl⟩ := path_of_seen hT hd p q n n' hn ho hn' ho' hpq
    by_cases hr : r = []
    · rw [hr, List.append_nil]
    · exfalso
      obtain ⟨cb, rest, he, hcont⟩ := seen_further hT hn hn' ho' hr
      rcases hc with hc | hc | ⟨cb', rest', hc, hno⟩
      · rw [he, hc] at hs'
        have := hs'.length_le
        simp at this
        omega
      · exact ha' p n (List.prefix_append _ _) (by simpa using fun h => hr h) hn hc
      · rw [he, hc, List.prefix_append_right_inj, List.cons_prefix_cons] at hs'
        exact hno (hs'.1 ▸ hcont)
  rcases List.prefix_or_prefix_of_prefix hp.choose_spec.2.2.1 hq.choose_spec.2.2.1 with h | h
  · exact key p q hp hq h
  · exact (key q p hq hp h).symm

/-- A run that is recorded has followed what it saw. -/
theorem followed_of {c : Config} {seen : List Callback} {p : Path} {n : Node} (h : Tracks T c seen p n) (hrec : Recorded T m c p) :
    Followed T seen p := by
  have above : ∀ q n', q <+: p → q ≠ p → nodeAt T q = some n' → ¬ Fails n' := by
    intro q n' hq hne hn'
    by_cases h0 : q = []
    · subst h0
      simp [nodeAt] at hn'
      subst hn'
      exact hrec.root (fun h => hne h.symm)
    · exact h.above q n' hq hne h0 hn'
  rcases h.cases with ⟨_, hs, _⟩ | ⟨_, hf, hs⟩ | ⟨cb, rest, _, _, hs, hno, _⟩
  · exact ⟨n, h.at_, h.alive, by rw [hs]; exact List.prefix_rfl, above, Or.inl hs⟩
  · exact ⟨n, h.at_, h.alive, hs, above, Or.inr (Or.inl hf)⟩
  · exact ⟨n, h.at_, h.alive, by rw [hs]; exact List.prefix_append _ _, above, Or.inr (Or.inr ⟨cb, rest, hs, hno⟩)⟩

/-- … and so has any run of a tree whose root does not fail. -/
theorem followed_any (hf : ¬ Fails T) {c : Config} {seen : List Callback} {p : Path} {n : Node} (h : Tracks T c seen p n) : Followed T seen p := by
  have above : ∀ q n', q <+: p → q ≠ p → nodeAt T q = some n' → ¬ Fails n' := by
    intro q n' hq hne hn'
    by_cases h0 : q = []
    · subst h0
      simp [nodeAt] at hn'
      subst hn'
      exact hf
    · exact h.above q n' hq hne h0 hn'
  rcases h.cases with ⟨_, hs, _⟩ | ⟨_, hf, hs⟩ | ⟨cb, rest, _, _, hs, hno, _⟩
  · exact ⟨n, h.at_, h.alive, by rw [hs]; exact List.prefix_rfl, above, Or.inl hs⟩
  · exact ⟨n, h.at_, h.alive, hs, above, Or.inr (Or.inl hf)⟩
  · exact ⟨n, h.at_, h.alive, by rw [hs]; exact List.prefix_append _ _, above, Or.inr (Or.inr ⟨cb, rest, hs, hno⟩)⟩

/-- When a run waits for its start. -/
theorem waits_start (cbs : List Callback) : (run m cbs).status = .waitStart ↔
    (TransitionContext.make m).firstStateHasIn = true ∧ .start ∉ cbs ∧ cbs.filter (sees (treeEvents T)) = [] := by
  have henter : ∀ {p n}, nodeAt T p = some n → n.outcome ≠ oFail → ∀ c : Config, c.status.isRunning = true → (enter m n.id c).status ≠ .waitStart := by
    intro p n hn ho c hr
    obtain ⟨h1, h2⟩ := enter_status hT hn ho c hr
    by_cases hf : Fails n
    · rw [h1 hf]; simp
    · rcases h2 hf with h | h <;> rw [h] <;> simp
  induction cbs using List.reverseRecOn with
  | nil =>
    show (construct m).status = .waitStart ↔ _
    by_cases hfirst : (TransitionContext.make m).firstStateHasIn = true
    · have : (construct m).status = .waitStart := by unfold construct; rw [if_pos hfirst]
      exact iff_of_true this ⟨hfirst, by simp, rfl⟩
    · refine iff_of_false ?_ fun h => hfirst h.1
      unfold construct
      rw [if_neg hfirst, initial_id hT]
      exact henter (p := []) rfl (root_alive hT) _ rfl
  | append_singleton cbs cb ih =>
    have hrun : run m (cbs ++ [cb]) = deliver m (run m cbs) cb := by unfold run; rw [List.foldl_append]; rfl
    rw [hrun, List.filter_append, List.append_eq_nil_iff, List.mem_append, List.mem_singleton]
    obtain ⟨p, n, ht⟩ := track_run hT cbs
    unfold deliver
    by_cases hr : (run m cbs).status.isRunning = true
    · rw [if_pos hr]
      by_cases hcb : cb = .start
      · subst hcb
        refine iff_of_false ?_ fun h => h.2.1 (.inr rfl)
        show (initialDelayCallback m _).status ≠ _
        unfold initialDelayCallback
        split
        · split
          · assumption
          · rw [initial_id hT]
            exact henter (p := []) rfl (root_alive hT) _ hr
        · rename_i hfirst
          exact fun h => hfirst (ih.1 h).1
      · rcases tree_step hT ht.at_ ht.alive _ ht.state cb hcb with ⟨hs, he⟩ | ⟨hs, i, k, e, hi, hko, hke, hobs, he⟩ | ⟨hs, hno, he⟩
        · rw [he, List.filter_cons_of_neg (by rw [hs]; simp)]
          refine ih.trans ?_
          constructor
          · rintro ⟨h1, h2, h3⟩
            exact ⟨h1, by rintro (h | h); exacts [h2 h, hcb h.symm], h3, rfl⟩
          · rintro ⟨h1, h2, h3, _⟩
            exact ⟨h1, fun h => h2 (.inl h), h3⟩
        · rw [he]
          refine iff_of_false (henter (child_ok hT ht.at_ hi).1 hko _ hr) fun h => ?_
          have := h.2.2.2
          rw [List.filter_cons_of_pos hs] at this
          cases this
        · rw [he, finish_running hr (derail_ended hcb)]
          refine iff_of_false ?_ fun h => ?_
          · cases cb <;> simp_all [derail]
          · have := h.2.2.2
            rw [List.filter_cons_of_pos hs] at this
            cases this
    · rw [if_neg hr]
      refine iff_of_false (fun h => hr (by rw [h]; rfl)) fun h => hr ?_
      rw [ih.2 ⟨h.1, fun h' => h.2.1 (.inl h'), h.2.2.1⟩]
      rfl

theorem fail_complete (hd : Deterministic T) (cbs : List Callback) {p : Path} {n : Node} (hp : p ≠ []) (hn : nodeAt T p = some n)
    (ho : n.outcome ≠ oFail) (hf : Fails n) (hs : seenTo T p <+: cbs.filter (sees (treeEvents T))) : (run m cbs).status = .fail := by
  obtain ⟨p', n', ht⟩ := track_run hT cbs
  -- the run cannot have got to the node or below without failing
  have stuck : p <+: p' → (p' ≠ [] → ¬ Fails n') → False := by
    intro hpp hnf
    by_cases he : p = p'
    · subst he
      have := ht.at_
      rw [hn] at this
      simp only [Option.some.injEq] at this
      subst this
      exact hnf hp hf
    · exact ht.above p n hpp he hp hn hf
  rcases ht.cases with ⟨_, hseen, hw1, hw2⟩ | ⟨h, _⟩ | ⟨cb, rest, _, _, hseen, hno, hnf⟩
  · rw [hseen] at hs
    exact absurd (fun hne => hw2 (fun hw => hne (hw1 hw))) (stuck (path_of_seen hT hd p p' n n' hn ho ht.at_ ht.alive hs))
  · exact h
  · exfalso
    rw [hseen] at hs
    rcases List.prefix_or_prefix_of_prefix hs (List.prefix_append (seenTo T p') (cb :: rest)) with h | h
    · exact stuck (path_of_seen hT hd p p' n n' hn ho ht.at_ ht.alive h) hnf
    · obtain ⟨r, rfl⟩ := path_of_seen hT hd p' p n' n ht.at_ ht.alive hn ho h
      by_cases hr : r = []
      · rw [hr, List.append_nil] at stuck; exact stuck List.prefix_rfl hnf
      · obtain ⟨cb', rest', he, hcont⟩ := seen_further hT ht.at_ hn ho hr
        rw [he, List.prefix_append_right_inj, List.cons_prefix_cons] at hs
        exact hno (hs.1 ▸ hcont)

/-- The first state waits for an input exactly when the root offers one. -/
theorem first_iff : (TransitionContext.make m).firstStateHasIn = true ↔ RootInput T := by
  rw [C39_firstStateHasIn]
  have hhead : m.states.head? = some (pureState T) := by
    rw [hT.states, List.head?_map, (listsNonFailing_visit hT.wf).2.2]; rfl
  rw [hhead]
  simp only [Option.some.injEq, exists_eq_left']
  constructor
  · rintro ⟨ts, hts, hk⟩
    obtain ⟨t, ht⟩ := set_nonempty T hts
    obtain ⟨i, k, e, hi, hko, hke, hch, _⟩ := mem_branches_child hT (p := []) rfl ((mem_pureState T ts.channel t).1 ⟨ts, hts, rfl, ht⟩)
    exact ⟨k, List.mem_of_getElem? hi, hko, e, hke, hch ▸ hk⟩
  · rintro ⟨k, hk, hko, e, hke, hkind⟩
    obtain ⟨ts, hts, hch, _⟩ := (mem_pureState T e.channel ⟨e.value, k.id⟩).2 (mem_branches.2 ⟨k, hk, hko, e, hke, rfl, rfl⟩)
    exact ⟨ts, hts, hch ▸ hkind⟩

/-! ### late callbacks -/

/-- The state is that of a node, the verdict fields are there, and a failed test is at a failing node. -/
structure Inside (T : Node) (m : Stm) (c : Config) (p : Path) (n : Node) : Prop where
  at_ : nodeAt T p = some n
  alive : n.outcome ≠ oFail
  state : c.state = n.id
  keys : c.verdict.keys = GoSet.values m.tests
  failed : c.status = .fail → Fails n

theorem inside_enter (c : Config) {p : Path} {n : Node} (hn : nodeAt T p = some n) (ho : n.outcome ≠ oFail)
    (hk : c.verdict.keys = GoSet.values m.tests) : Inside T m (enter m n.id c) p n := by
  refine ⟨hn, ho, enter_state_eq hT hn ho c, enter_keys hT hn ho c hk, ?_⟩
  intro hs
  by_cases h : Fails n
  · exact h
  · rw [enter_node hT hn ho] at hs
    have hfb : (pureState n).verdict.isFail = false := by
      rw [← Bool.not_eq_true]; exact fun h' => h ((fails_iff n).1 h')
    rw [(settle_status _ _).2 hfb] at hs
    split at hs <;> cases hs

theorem inside_construct : Inside T m (construct m) [] T := by
  unfold construct
  rw [initial_id hT]
  have hkeys : GoMap.keys ((GoSet.values m.tests).map (fun t => (t, Outcome.unset))) = GoSet.values m.tests := by
    unfold GoMap.keys; rw [List.map_map]; exact List.map_id _
  split
  · exact ⟨rfl, root_alive hT, rfl, hkeys, fun h => by cases h⟩
  · exact inside_enter hT _ (p := []) rfl (root_alive hT) hkeys

/-- One callback, also a late one. -/
theorem inside_step {c : Config} {p : Path} {n : Node} (h : Inside T m c p n) (cb : Callback) :
    (step m c cb = c) ∨
    (cb = .start ∧ c.status = .waitStart ∧ step m c cb = enter m T.id c) ∨
    (cb ≠ .start ∧ ¬ Continues n cb ∧ step m c cb = finish (derail cb) c) ∨
    (∃ (i : Nat) (k : Node) (e : Event), n.next[i]? = some k ∧ k.outcome ≠ oFail ∧ k.event = some e ∧ observed e = cb ∧
      step m c cb = enter m k.id c) := by
  by_cases hcb : cb = .start
  · subst hcb
    by_cases hw : c.status = .waitStart
    · by_cases hf : (TransitionContext.make m).firstStateHasIn = true
      · refine Or.inr (Or.inl ⟨rfl, hw, ?_⟩)
        unfold step initialDelayCallback
        simp only [hf, if_true]
        rw [if_neg (by simp [hw]), initial_id hT]
      · left
        unfold step initialDelayCallback
        simp only
        rw [if_neg hf]
    · exact Or.inl (start_noop hw)
  · rcases tree_step hT h.at_ h.alive c h.state cb hcb with ⟨_, he⟩ | ⟨_, i, k, e, hi, hko, hke, hobs, he⟩ | ⟨_, hno, he⟩
    · exact Or.inl he
    · exact Or.inr (Or.inr (Or.inr ⟨i, k, e, hi, hko, hke, hobs, he⟩))
    · exact Or.inr (Or.inr (Or.inl ⟨hcb, hno, he⟩))

theorem finish_fields (s : Status) (c : Config) : (finish s c).state = c.state ∧ (finish s c).verdict = c.verdict ∧ (finish s c).sent = c.sent := by
  unfold finish
  split
  · exact ⟨rfl, rfl, rfl⟩
  · split <;> exact ⟨rfl, rfl, rfl⟩

/-- Where one callback leads.  A test that has failed and then moves on is no longer failed: see `C60_fail_lost`. -/
theorem inside_next {c : Config} {p : Path} {n : Node} (h : Inside T m c p n) (cb : Callback) :
    (∃ p' n', Inside T m (step m c cb) p' n') := by
  rcases inside_step hT h cb with he | ⟨_, hw, he⟩ | ⟨hcb, _, he⟩ | ⟨i, k, e, hi, hko, _, _, he⟩
  · rw [he]; exact ⟨p, n, h⟩
  · rw [he]
    exact ⟨[], T, inside_enter hT c (p := []) rfl (root_alive hT) h.keys⟩
  · rw [he]
    obtain ⟨f1, f2, _⟩ := finish_fields hT (derail cb) c
    refine ⟨p, n, h.at_, h.alive, by rw [f1]; exact h.state, by rw [f2]; exact h.keys, ?_⟩
    intro hf
    by_cases hr : c.status.isRunning = true
    · rw [finish_running hr (derail_ended hcb)] at hf
      cases cb <;> first | cases hf | exact absurd rfl hcb
    · rw [finish_ended (by simpa using hr)] at hf
      exact h.failed hf
  · obtain ⟨hk, _⟩ := child_ok hT h.at_ hi
    rw [he]
    exact ⟨p ++ [i], k, inside_enter hT c hk hko h.keys⟩

theorem inside_late (cbs : List Callback) : ∃ p n, Inside T m (lateRun m cbs) p n := by
  induction cbs using List.reverseRecOn with
  | nil => exact ⟨[], T, inside_construct hT⟩
  | append_singleton cbs cb ih =>
    obtain ⟨p, n, h⟩ := ih
    have : lateRun m (cbs ++ [cb]) = step m (lateRun m cbs) cb := by unfold lateRun; rw [List.foldl_append]; rfl
    rw [this]
    exact inside_next hT h cb

omit hT in
/-- A run is what its callbacks up to the end do. -/
theorem run_late (m : Stm) (cbs : List Callback) : ∃ pre, pre <+: cbs ∧ run m cbs = lateRun m pre := by
  induction cbs using List.reverseRecOn with
  | nil => exact ⟨[], List.prefix_rfl, rfl⟩
  | append_singleton cbs cb ih =>
    obtain ⟨pre, hpre, he⟩ := ih
    have h1 : run m (cbs ++ [cb]) = deliver m (run m cbs) cb := by unfold run; rw [List.foldl_append]; rfl
    rw [h1]
    unfold deliver
    by_cases hr : (run m cbs).status.isRunning = true
    · rw [if_pos hr]
      refine ⟨cbs ++ [cb], List.prefix_rfl, ?_⟩
      -- while it runs, nothing was held back
      have key : ∀ cbs, (run m cbs).status.isRunning = true → run m cbs = lateRun m cbs := by
        intro cbs
        induction cbs using List.reverseRecOn with
        | nil => intro _; rfl
        | append_singleton cbs cb ih =>
          intro hr
          have h2 : run m (cbs ++ [cb]) = deliver m (run m cbs) cb := by unfold run; rw [List.foldl_append]; rfl
          rw [h2] at hr ⊢
          unfold deliver at hr ⊢
          by_cases hr' : (run m cbs).status.isRunning = true
          · rw [if_pos hr', ih hr']
            unfold lateRun; rw [List.foldl_append]; rfl
          · rw [if_neg hr'] at hr; exact absurd hr hr'
      rw [key cbs hr]
      unfold lateRun; rw [List.foldl_append]; rfl
    · rw [if_neg hr]
      exact ⟨pre, hpre.trans (List.prefix_append _ _), he⟩

end Tree

end Rtcg.Harness
