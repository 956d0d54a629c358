import Verif.Proofs.Linear
import Verif.Props.StmAgg
import Verif.Spec.Harness

/-
Running generated tests: the callbacks in terms of the states, and the linear machine of a forbidden trace.
-/

namespace Rtcg.Harness

open Rtcg Spec

/-! ### any machine -/

theorem finish_running {c : Config} (hr : c.status.isRunning = true) {s : Status} (hs : s.isRunning = false) :
    finish s c = { c with status := s } := by
  unfold finish
  rw [hr, hs]
  rfl

theorem finish_ended {c : Config} (hr : c.status.isRunning = false) (s : Status) : finish s c = c := by
  unfold finish
  rw [hr]
  rfl

/-- The transitions of a state on a channel. -/
def onChannel (s : State) (ch : Channel) : List Transition :=
  (s.transitionSets.filter (fun ts => ts.channel = ch)).flatMap (·.transitions)

/-- The machine uses the channel as an output. -/
def UsesOut (m : Stm) (ch : Channel) : Prop := ch.kind ≠ kIn ∧ ∃ s ∈ m.states, ∃ ts ∈ s.transitionSets, ts.channel = ch

theorem filter_id {l : List State} (hnd : (l.map (·.id)).Nodup) {s : State} (hs : s ∈ l) : l.filter (fun x => x.id = s.id) = [s] := by
  induction l with
  | nil => cases hs
  | cons a l ih =>
    rw [List.map_cons, List.nodup_cons] at hnd
    rcases List.mem_cons.1 hs with rfl | hs
    · rw [List.filter_cons_of_pos (by simp), List.filter_eq_nil_iff.2]
      intro x hx
      simp only [decide_eq_true_eq]
      intro e
      exact hnd.1 (e ▸ List.mem_map_of_mem hx)
    · rw [List.filter_cons_of_neg, ih hnd.2 hs]
      simp only [decide_eq_true_eq]
      intro e
      exact hnd.1 (e ▸ List.mem_map_of_mem hs)

theorem find_id {l : List State} (hnd : (l.map (·.id)).Nodup) {s : State} (hs : s ∈ l) : l.find? (fun x => x.id = s.id) = some s := by
  rw [← List.head?_filter, filter_id hnd hs]; rfl

theorem transitionsOn_state {m : Stm} (hnd : (m.states.map (·.id)).Nodup) {s : State} (hs : s ∈ m.states) (ch : Channel) :
    transitionsOn m ch s.id = onChannel s ch := by
  unfold transitionsOn
  rw [filter_id hnd hs]
  simp [onChannel]

theorem find_out (m : Stm) (ch : Channel) :
    match (TransitionContext.make m).out.find? (fun a => a.channel = ch) with
    | none => ¬ UsesOut m ch
    | some a => a ∈ m.aggregates ∧ a.channel = ch ∧ UsesOut m ch := by
  rw [(C39_partition m).2.2.2]
  obtain ⟨h1, h2⟩ := C38_aggregates m
  have huse : ch ∈ m.aggregates.map (·.channel) ↔ ∃ s ∈ m.states, ∃ ts ∈ s.transitionSets, ts.channel = ch := by
    rw [h1, mem_firstUses]
    simp only [List.mem_flatMap, List.mem_map]
  cases hf : (m.aggregates.filter fun a => a.channel.kind ≠ kIn).find? (fun a => a.channel = ch) with
  | none =>
    rintro ⟨hk, hu⟩
    obtain ⟨a, ha, rfl⟩ := List.mem_map.1 (huse.2 hu)
    have := List.find?_eq_none.1 hf a (List.mem_filter.2 ⟨ha, by simpa using hk⟩)
    simp at this
  | some a =>
    have hm := List.mem_of_find?_eq_some hf
    have hc := List.find?_some hf
    simp only [decide_eq_true_eq] at hc
    obtain ⟨ha, hk⟩ := List.mem_filter.1 hm
    refine ⟨ha, hc, ?_, huse.1 (List.mem_map.2 ⟨a, ha, hc⟩)⟩
    rw [← hc]; simpa using hk

theorem outputCallback_unused {m : Stm} {ch : Channel} (h : ¬ UsesOut m ch) (v : Value) (c : Config) : outputCallback m ch v c = c := by
  unfold outputCallback
  have := find_out m ch
  cases hf : (TransitionContext.make m).out.find? (fun a => a.channel = ch) with
  | none => rfl
  | some a => rw [hf] at this; exact absurd this.2.2 h

theorem outputCallback_used {m : Stm} (hnd : (m.states.map (·.id)).Nodup) {s : State} (hs : s ∈ m.states) {ch : Channel}
    (h : UsesOut m ch) (v : Value) (c : Config) (hc : c.state = s.id) :
    outputCallback m ch v c =
      match (onChannel s ch).find? (fun t => t.value = v) with
      | some t => enter m t.next c
      | none => finish .offScript c := by
  unfold outputCallback
  have := find_out m ch
  cases hf : (TransitionContext.make m).out.find? (fun a => a.channel = ch) with
  | none => rw [hf] at this; exact absurd h this
  | some a =>
    rw [hf] at this
    obtain ⟨ha, hac, _⟩ := this
    obtain ⟨_, h2⟩ := C38_aggregates m
    obtain ⟨hn, hl⟩ := (h2 a ha).2 s.id
    simp only [hc]
    cases hg : GoMap.get? a.states s.id with
    | none =>
      have hno := hn.1 hg
      have : onChannel s ch = [] := by
        unfold onChannel
        rw [List.filter_eq_nil_iff.2]
        · rfl
        · intro ts hts
          simp only [decide_eq_true_eq]
          intro e
          exact hno ⟨s, hs, rfl, ts, hts, by rw [hac]; exact e⟩
      rw [this]
      rfl
    | some l =>
      have := hl l hg
      rw [hac, transitionsOn_state hnd hs] at this
      rw [this]
      cases hx : (onChannel s ch).find? (fun t => t.value = v) <;> simp only [hx]

theorem inputAccepted_none {m : Stm} (h : ¬ ∃ s ∈ m.states, ∃ ts ∈ s.transitionSets, ts.channel.kind = kIn) (c : Config) :
    inputAcceptedCallback m c = c := by
  unfold inputAcceptedCallback
  rw [if_neg]
  rw [(C39_hasIn m).2]
  exact h

theorem inputAccepted_bug {m : Stm} (hnd : (m.states.map (·.id)).Nodup) {s : State} (hs : s ∈ m.states)
    (h : ∃ s ∈ m.states, ∃ ts ∈ s.transitionSets, ts.channel.kind = kIn) (c : Config) (hc : c.state = s.id)
    (hno : ∀ ts ∈ s.transitionSets, ts.channel.kind ≠ kIn) : inputAcceptedCallback m c = finish .bug c := by
  unfold inputAcceptedCallback
  rw [if_pos ((C39_hasIn m).2.2 h), hc]
  have : GoMap.get? (TransitionContext.make m).inMerged s.id = none := by
    rw [(C39_inMerged m s.id).1]
    rintro ⟨s', hs', hid, ts, hts, hk⟩
    have : s' = s := by
      have := find_id hnd hs'
      rw [hid, find_id hnd hs] at this
      exact (Option.some.inj this).symm
    subst this
    exact hno ts hts hk
  rw [this]

/-- The input transitions of a state. -/
def inputsOfState (s : State) : List Transition := (s.transitionSets.filter (fun ts => ts.channel.kind = kIn)).flatMap (·.transitions)

theorem inputAccepted_in {m : Stm} (hnd : (m.states.map (·.id)).Nodup) {s : State} (hs : s ∈ m.states) (c : Config) (hc : c.state = s.id)
    (hin : ∃ ts ∈ s.transitionSets, ts.channel.kind = kIn) (hne : inputsOfState s ≠ []) :
    ∃ t ∈ inputsOfState s, inputAcceptedCallback m c = enter m t.next c := by
  unfold inputAcceptedCallback
  obtain ⟨ts, hts, hk⟩ := hin
  rw [if_pos ((C39_hasIn m).2.2 ⟨s, hs, ts, hts, hk⟩), hc]
  obtain ⟨h1, h2⟩ := C39_inMerged m s.id
  have hI : inputsAt m s.id = inputsOfState s := by
    unfold inputsAt; rw [filter_id hnd hs]; simp [inputsOfState]
  cases hg : GoMap.get? (TransitionContext.make m).inMerged s.id with
  | none => exact absurd ⟨s, hs, rfl, ts, hts, hk⟩ (h1.1 hg)
  | some l =>
    have hp := (h2 l hg).2
    rw [hI] at hp
    cases l with
    | nil => exact absurd hp.symm.eq_nil hne
    | cons t l => exact ⟨t, hp.mem_iff.1 (by simp), rfl⟩

theorem enter_state {m : Stm} (hnd : (m.states.map (·.id)).Nodup) {s : State} (hs : s ∈ m.states) (c : Config) :
    enter m s.id c = settle s (setVerdicts s.verdict { c with state := s.id }) := by
  unfold enter
  simp only
  rw [find_id hnd hs]

/-! ### the linear machine -/

theorem stateName_inj {i j : Nat} (h : stateName i = stateName j) : i = j := by
  cases i with
  | zero =>
    cases j with
    | zero => rfl
    | succ j => simp [stateName] at h
  | succ i =>
    cases j with
    | zero => simp [stateName] at h
    | succ j => rw [decNat_inj (List.append_cancel_left h)]

section Linear

variable {f : Forbidden} {name : Str} {m : Stm} (hs : m.states = linearStates f name)

include hs

theorem linear_nodup : (m.states.map (·.id)).Nodup := by
  rw [hs]
  unfold linearStates
  rw [List.map_map]
  refine List.Nodup.map ?_ List.nodup_range
  intro i j h
  exact stateName_inj h

theorem linear_mem {k : Nat} (hk : k ≤ (eventsOf f).length) : linearState f name k ∈ m.states := by
  rw [hs]
  refine List.mem_map.2 ⟨k, ?_, rfl⟩
  simp [eventsOf] at hk
  rw [List.mem_range]; omega

omit hs in
theorem linear_sets {k : Nat} {e : Event} (h : (eventsOf f)[k]? = some e) :
    (linearState f name k).transitionSets = [{ channel := e.channel, transitions := [{ value := e.value, next := stateName (k + 1) }] }] := by
  simp only [linearState, h]

omit hs in
theorem linear_sets_end {k : Nat} (h : (eventsOf f)[k]? = none) : (linearState f name k).transitionSets = [] := by
  simp only [linearState, h]

theorem linear_uses (P : Channel → Prop) :
    (∃ s ∈ m.states, ∃ ts ∈ s.transitionSets, P ts.channel) ↔ ∃ e ∈ eventsOf f, P e.channel := by
  rw [hs]
  constructor
  · rintro ⟨s, hs', ts, hts, hc⟩
    obtain ⟨k, hk, rfl⟩ := List.mem_map.1 hs'
    cases he : (eventsOf f)[k]? with
    | none => rw [linear_sets_end he] at hts; cases hts
    | some e =>
      rw [linear_sets he, List.mem_singleton] at hts
      subst hts
      exact ⟨e, List.mem_of_getElem? he, hc⟩
  · rintro ⟨e, he, hc⟩
    obtain ⟨k, hk⟩ := List.getElem?_of_mem he
    have hlt : k < (eventsOf f).length := (List.getElem?_eq_some_iff.1 hk).1
    refine ⟨linearState f name k, by rw [← hs]; exact linear_mem hs (by omega), _, by rw [linear_sets hk]; exact List.mem_singleton.2 rfl, hc⟩

theorem linear_usesOut (ch : Channel) : UsesOut m ch ↔ ch.kind ≠ kIn ∧ ∃ e ∈ eventsOf f, e.channel = ch := by
  unfold UsesOut
  rw [linear_uses hs (fun c => c = ch)]

theorem linear_first : (TransitionContext.make m).firstStateHasIn = true ↔ StartsWithInput f := by
  rw [C39_firstStateHasIn]
  have : m.states.head? = some (linearState f name 0) := by
    rw [hs]; unfold linearStates; rw [List.range_succ_eq_map]; rfl
  rw [this]
  simp only [Option.some.injEq, exists_eq_left']
  unfold StartsWithInput
  rw [List.head?_eq_getElem?]
  cases h : (eventsOf f)[0]? with
  | none => rw [linear_sets_end h]; simp
  | some e => rw [linear_sets h]; simp

theorem linear_initial : initial m = stateName 0 := by
  unfold initial Stm.initialState
  rw [hs]
  unfold linearStates
  rw [List.range_succ_eq_map]
  rfl

/-- The configuration on entering the state after `k` events. -/
def entered (f : Forbidden) (name : Str) (k : Nat) (sent : List (Channel × Value)) : Config where
  state := stateName k
  status :=
    match (eventsOf f)[k]? with
    | none => .fail
    | some e => if e.channel.kind = kIn then .waitIn else .waitOut
  verdict := [(name, verdictAt f.pre.length k)]
  sent := sent ++ inputsOf (eventsOf f)[k]?.toList

theorem linear_enter {k : Nat} (hk : k ≤ (eventsOf f).length) (c : Config) (hv : c.verdict.keys = [name]) (hr : c.status.isRunning = true) :
    enter m (stateName k) c = entered f name k c.sent := by
  have := enter_state (linear_nodup hs) (linear_mem hs hk) c
  have hid : (linearState f name k).id = stateName k := rfl
  rw [hid] at this
  rw [this]
  obtain ⟨st, status, verdict, sent⟩ := c
  simp only at hv hr
  have hvd : ∃ o, verdict = [(name, o)] := by
    unfold GoMap.keys at hv
    match verdict, hv with
    | [(a, o)], hv => simp at hv; exact ⟨o, by rw [hv]⟩
  obtain ⟨o, rfl⟩ := hvd
  have hlen : (eventsOf f).length = f.pre.length + 1 := by simp [eventsOf]
  have hset : setVerdicts (linearState f name k).verdict ⟨stateName k, status, [(name, o)], sent⟩ =
      ⟨stateName k, status, [(name, verdictAt f.pre.length k)], sent⟩ := by
    simp [setVerdicts, linearState, GoMap.set]
  rw [hset]
  unfold settle
  cases he : (eventsOf f)[k]? with
  | none =>
    have hge := List.getElem?_eq_none_iff.1 he
    have hfail : (linearState f name k).verdict.isFail = true := by
      simp only [linearState, verdictAt]
      rw [if_neg (by omega), if_neg (by omega)]
      rfl
    rw [if_pos hfail]
    unfold finish entered
    rw [he, hr]
    simp [Status.isRunning, inputsOf]
  | some e =>
    have hlt := (List.getElem?_eq_some_iff.1 he).1
    have hfail : (linearState f name k).verdict.isFail = false := by
      simp only [linearState, verdictAt]
      by_cases h : k < f.pre.length
      · rw [if_pos h]; rfl
      · rw [if_neg h, if_pos (by omega)]; rfl
    rw [if_neg (by rw [hfail]; simp)]
    unfold State.hasIn State.in_ entered
    rw [linear_sets he, he]
    by_cases hkind : e.channel.kind = kIn
    · simp [State.in_.go, isIn_eq, hkind, inputsOf]
    · simp [isIn_eq, hkind, inputsOf]

/-- What ends the test when it is not the event waited for. -/
def derail : Callback → Status
  | .timeout => .timeout
  | .accepted => .bug
  | .start => .waitStart
  | .output _ _ => .offScript

/-- One callback in the state after `k` events. -/
theorem linear_step {k : Nat} {e : Event} (he : (eventsOf f)[k]? = some e) (c : Config) (hst : c.state = stateName k)
    (hv : c.verdict.keys = [name]) (hr : c.status.isRunning = true) (cb : Callback) (hcb : cb ≠ .start) :
    step m c cb =
      if counts f cb then
        if observed e = cb then entered f name (k + 1) c.sent
        else { c with status := derail cb }
      else c := by
  have hlt := (List.getElem?_eq_some_iff.1 he).1
  have hmem := linear_mem hs (k := k) (by omega)
  have hnd := linear_nodup hs
  cases cb with
  | start => exact absurd rfl hcb
  | timeout =>
    have : observed e ≠ .timeout := by unfold observed; split <;> simp
    rw [if_pos (show counts f .timeout = true from rfl), if_neg this]
    unfold step timeoutCallback
    rw [finish_running hr rfl, hr]
    rfl
  | accepted =>
    simp only [step, counts, sees, List.any_eq_true, decide_eq_true_eq]
    have huse := linear_uses hs (fun c => c.kind = kIn)
    by_cases h : ∃ e ∈ eventsOf f, e.channel.kind = kIn
    · rw [if_pos h]
      by_cases hk : e.channel.kind = kIn
      · have ho : observed e = .accepted := by simp [observed, hk]
        rw [if_pos ho]
        have hi : inputsOfState (linearState f name k) = [⟨e.value, stateName (k + 1)⟩] := by
          unfold inputsOfState; rw [linear_sets he]; simp [hk]
        obtain ⟨t, ht, heq⟩ := inputAccepted_in hnd hmem c hst ⟨_, by rw [linear_sets he]; exact List.mem_singleton.2 rfl, hk⟩
          (by rw [hi]; simp)
        rw [hi, List.mem_singleton] at ht
        rw [heq, ht]
        exact linear_enter hs (k := k + 1) (by omega) c hv hr
      · have ho : observed e ≠ .accepted := by simp [observed, hk]
        rw [if_neg ho, inputAccepted_bug hnd hmem (huse.2 h) c hst]
        · rw [finish_running hr rfl]; rfl
        · intro ts hts
          rw [linear_sets he, List.mem_singleton] at hts
          subst hts
          exact hk
    · rw [if_neg h, inputAccepted_none]
      exact fun h' => h (huse.1 h')
  | output ch v =>
    simp only [step, counts, sees, List.any_eq_true, decide_eq_true_eq]
    have huse := linear_usesOut hs ch
    by_cases h : ∃ e ∈ eventsOf f, e.channel = ch ∧ ch.kind ≠ kIn
    · rw [if_pos h]
      have hu : UsesOut m ch := by
        obtain ⟨e, he, hc, hk⟩ := h
        exact huse.2 ⟨hk, e, he, hc⟩
      have hk := hu.1
      rw [outputCallback_used hnd hmem hu v c hst]
      unfold onChannel
      rw [linear_sets he]
      by_cases hc : e.channel = ch
      · rw [List.filter_cons_of_pos (by simpa using hc)]
        by_cases hval : e.value = v
        · have ho : observed e = .output ch v := by simp [observed, hc, hval, hk]
          rw [if_pos ho]
          simp only [List.filter_nil, List.flatMap_cons, List.flatMap_nil, List.append_nil, List.find?_cons_of_pos, hval, decide_true]
          exact linear_enter hs (by omega) c hv hr
        · have ho : observed e ≠ .output ch v := by simp [observed, hc, hval, hk]
          rw [if_neg ho]
          simp only [List.filter_nil, List.flatMap_cons, List.flatMap_nil, List.append_nil, List.find?_cons, hval, decide_false, List.find?_nil]
          rw [finish_running hr rfl]; rfl
      · rw [List.filter_cons_of_neg (by simpa using hc)]
        have ho : observed e ≠ .output ch v := by unfold observed; split <;> simp [hc]
        rw [if_neg ho]
        simp only [List.filter_nil, List.flatMap_nil, List.find?_nil]
        rw [finish_running hr rfl]; rfl
    · rw [if_neg h, outputCallback_unused]
      rw [huse]
      rintro ⟨hk, e, he, hc⟩
      exact h ⟨e, he, hc, hk⟩

/-- The configuration reached from `c`, in the state after `k` events, on seeing `seen`. -/
def reached (f : Forbidden) (name : Str) (c : Config) (k : Nat) (seen : List Callback) : Config where
  state := stateName (k + progress ((script f).drop k) seen)
  status :=
    match seen[progress ((script f).drop k) seen]? with
    | none => if progress ((script f).drop k) seen = 0 then c.status else (entered f name (k + progress ((script f).drop k) seen) []).status
    | some cb => if k + progress ((script f).drop k) seen = (script f).length then .fail else derail cb
  verdict :=
    if progress ((script f).drop k) seen = 0 then c.verdict
    else [(name, verdictAt f.pre.length (k + progress ((script f).drop k) seen))]
  sent := c.sent ++ inputsOf (((eventsOf f).drop (k + 1)).take (progress ((script f).drop k) seen))

omit hs in
theorem progress_nil (s : List Callback) : progress s [] = 0 := by cases s <;> rfl

omit hs in
theorem script_drop {k : Nat} {e : Event} (he : (eventsOf f)[k]? = some e) : (script f).drop k = observed e :: (script f).drop (k + 1) := by
  obtain ⟨hlt, he⟩ := List.getElem?_eq_some_iff.1 he
  have hlt' : k < (script f).length := by simpa [script] using hlt
  rw [List.drop_eq_getElem_cons hlt']
  congr 1
  simp [script, he]

omit hs in
theorem script_drop_end {k : Nat} (he : (eventsOf f)[k]? = none) : (script f).drop k = [] := by
  rw [List.drop_eq_nil_iff]
  simpa [script] using List.getElem?_eq_none_iff.1 he

omit hs in
theorem foldl_ended {c : Config} (hr : c.status.isRunning = false) (evs : List Callback) : evs.foldl (deliver m) c = c := by
  induction evs with
  | nil => rfl
  | cons cb evs ih => rw [List.foldl_cons, deliver, hr]; exact ih

omit hs in
theorem entered_status (f : Forbidden) (name : Str) (k : Nat) (sent : List (Channel × Value)) :
    (entered f name k sent).status ≠ .waitStart ∧ ((entered f name k sent).status.isRunning = true ↔ k < (eventsOf f).length) := by
  unfold entered
  cases he : (eventsOf f)[k]? with
  | none =>
    have := List.getElem?_eq_none_iff.1 he
    refine ⟨by simp, ?_⟩
    simp only [Status.isRunning]
    constructor
    · intro h; cases h
    · intro h; omega
  | some e =>
    have := (List.getElem?_eq_some_iff.1 he).1
    by_cases hk : e.channel.kind = kIn <;> simp [hk, Status.isRunning, this]

omit hs in
theorem start_noop {c : Config} (h : c.status ≠ .waitStart) : step m c .start = c := by
  simp [step, initialDelayCallback, h]

theorem run_from (evs : List Callback) (k : Nat) (c : Config) (hk : k < (eventsOf f).length) (hst : c.state = stateName k)
    (hv : c.verdict.keys = [name]) (hr : c.status.isRunning = true) (hstart : c.status = .waitStart → ¬ Started f evs) :
    evs.foldl (deliver m) c = reached f name c k (evs.filter (counts f)) := by
  obtain ⟨e, he⟩ : ∃ e, (eventsOf f)[k]? = some e := ⟨_, List.getElem?_eq_getElem hk⟩
  induction evs generalizing k c e with
  | nil =>
    simp only [List.foldl_nil, List.filter_nil, reached, progress_nil, List.getElem?_nil, if_true, Nat.add_zero, List.take_zero]
    cases c
    simp only at hst
    simp [inputsOf, hst]
  | cons cb evs ih =>
    rw [List.foldl_cons]
    have hd : deliver m c cb = step m c cb := by unfold deliver; rw [hr]; rfl
    rw [hd]
    by_cases hcnt : counts f cb = true
    · have hcb : cb ≠ .start := by rintro rfl; cases hcnt
      rw [linear_step hs he c hst hv hr cb hcb, if_pos hcnt, List.filter_cons_of_pos hcnt]
      have hlen : (script f).length = (eventsOf f).length := by simp [script]
      by_cases ho : observed e = cb
      · rw [if_pos ho]
        have hp : ∀ seen, progress ((script f).drop k) (cb :: seen) = progress ((script f).drop (k + 1)) seen + 1 := by
          intro seen; rw [script_drop he, ← ho]; simp [progress]
        by_cases hk' : k + 1 < (eventsOf f).length
        · obtain ⟨e', he'⟩ : ∃ e, (eventsOf f)[k + 1]? = some e := ⟨_, List.getElem?_eq_getElem hk'⟩
          rw [ih (k + 1) (entered f name (k + 1) c.sent) hk' rfl rfl ((entered_status f name (k + 1) c.sent).2.2 hk')
            (fun h => absurd h (entered_status f name (k + 1) c.sent).1) e' he']
          unfold reached
          simp only [hp, List.getElem?_cons_succ]
          have h2 : (List.drop (k + 1) (eventsOf f)) = e' :: List.drop (k + 1 + 1) (eventsOf f) := by
            obtain ⟨hlt, he'⟩ := List.getElem?_eq_some_iff.1 he'
            rw [List.drop_eq_getElem_cons hlt, he']
          rw [h2]
          generalize hq : progress ((script f).drop (k + 1)) (evs.filter (counts f)) = q
          have h1 : k + (q + 1) = k + 1 + q := by omega
          rw [h1]
          congr 1
          · cases (evs.filter (counts f))[q]? with
            | none =>
              rw [if_neg (show ¬ q + 1 = 0 by omega)]; simp only
              by_cases h0 : q = 0
              · rw [if_pos h0, h0]; rfl
              · rw [if_neg h0]
            | some cb => rfl
          · by_cases h0 : q = 0
            · rw [if_pos h0, h0]; simp [entered]
            · rw [if_neg h0]; simp
          · simp only [entered, he', Option.toList, List.take_succ_cons, List.append_assoc]
            congr 1
            unfold inputsOf
            rw [← List.map_append, ← List.filter_append]
            rfl
        · have hkn : (eventsOf f)[k + 1]? = none := List.getElem?_eq_none (by omega)
          rw [foldl_ended]
          · unfold reached entered
            have hpz : progress ((script f).drop (k + 1)) (evs.filter (counts f)) = 0 := by rw [script_drop_end hkn]; rfl
            simp only [hp, hpz, hkn, List.getElem?_cons_succ]
            congr 1
            · cases (evs.filter (counts f))[0]? with
              | none => simp
              | some _ => simp; omega
            · have : (eventsOf f).drop (k + 1) = [] := by rw [List.drop_eq_nil_iff]; omega
              simp [this]
          · cases hrr : (entered f name (k + 1) c.sent).status.isRunning with
            | false => rfl
            | true => exact absurd ((entered_status f name (k + 1) c.sent).2.1 hrr) hk'
      · rw [if_neg ho]
        have hp : ∀ seen, progress ((script f).drop k) (cb :: seen) = 0 := by
          intro seen; rw [script_drop he]; simp [progress, ho]
        rw [foldl_ended]
        · unfold reached
          simp only [hp, List.getElem?_cons_zero, Nat.add_zero, List.take_zero, if_true]
          rw [if_neg (by omega)]
          simp [inputsOf, hst]
        · cases cb <;> first | rfl | exact absurd rfl hcb
    · rw [List.filter_cons_of_neg hcnt]
      have hsame : step m c cb = c := by
        by_cases hcb : cb = .start
        · subst hcb
          refine start_noop ?_
          intro hw
          refine hstart hw ?_
          unfold Started StartedIn
          rw [List.takeWhile_cons_of_pos (by simp [hcnt])]
          simp
        · rw [linear_step hs he c hst hv hr cb hcb, if_neg hcnt]
      rw [hsame]
      refine ih k c hk hst hv hr ?_ e he
      intro hw hst'
      refine hstart hw ?_
      unfold Started StartedIn at hst' ⊢
      rw [List.takeWhile_cons_of_pos (by simp [hcnt])]
      exact List.mem_cons_of_mem _ hst'

/-- The configuration before the first event of the trace. -/
def before (f : Forbidden) (name : Str) (evs : List Callback) : Config :=
  if StartsWithInput f ∧ ¬ Started f evs then ⟨stateName 0, .waitStart, [(name, oUnset)], []⟩ else entered f name 0 []

omit hs in
theorem eventsOf_pos (f : Forbidden) : 0 < (eventsOf f).length := by simp [eventsOf]

omit hs in
theorem entered_keys (f : Forbidden) (name : Str) (k : Nat) (sent : List (Channel × Value)) : (entered f name k sent).verdict.keys = [name] := rfl

theorem linear_construct (ht : GoSet.values m.tests = [name]) :
    construct m = if StartsWithInput f then ⟨stateName 0, .waitStart, [(name, oUnset)], []⟩ else entered f name 0 [] := by
  unfold construct
  rw [ht, linear_initial hs]
  have := linear_first hs
  by_cases h : StartsWithInput f
  · rw [if_pos h, if_pos (this.2 h)]; rfl
  · rw [if_neg h, if_neg (fun h' => h (this.1 h'))]
    exact linear_enter hs (Nat.zero_le _) _ rfl rfl

theorem started_from (evs : List Callback) (hin : StartsWithInput f) (h : Started f evs) :
    ∃ rest : List Callback, evs.foldl (deliver m) ⟨stateName 0, .waitStart, [(name, oUnset)], []⟩ = rest.foldl (deliver m) (entered f name 0 []) ∧
      rest.filter (counts f) = evs.filter (counts f) := by
  induction evs with
  | nil => cases h
  | cons cb evs ih =>
    unfold Started StartedIn at h
    by_cases hcnt : counts f cb = true
    · rw [List.takeWhile_cons_of_neg (by simp [hcnt])] at h; cases h
    · rw [List.filter_cons_of_neg hcnt]
      by_cases hcb : cb = .start
      · subst hcb
        refine ⟨evs, ?_, rfl⟩
        rw [List.foldl_cons]
        congr 1
        show step m _ .start = _
        unfold step initialDelayCallback
        simp only [(linear_first hs).2 hin, if_true, ne_eq, not_true_eq_false, if_false]
        rw [linear_initial hs]
        exact linear_enter hs (Nat.zero_le _) _ rfl rfl
      · rw [List.takeWhile_cons_of_pos (by simp [hcnt])] at h
        have h' : Started f evs := by
          rcases List.mem_cons.1 h with h | h
          · exact absurd h.symm hcb
          · exact h
        obtain ⟨rest, h1, h2⟩ := ih h'
        refine ⟨rest, ?_, h2⟩
        rw [List.foldl_cons, ← h1]
        congr 1
        obtain ⟨e, he⟩ : ∃ e, (eventsOf f)[0]? = some e := ⟨_, List.getElem?_eq_getElem (eventsOf_pos f)⟩
        show step m _ cb = _
        rw [linear_step hs he _ rfl rfl rfl cb hcb, if_neg hcnt]

/-- Every run of the test of a forbidden trace, in closed form. -/
theorem run_linear (ht : GoSet.values m.tests = [name]) (evs : List Callback) :
    run m evs = reached f name (before f name evs) 0 (evs.filter (counts f)) := by
  unfold run
  rw [linear_construct hs ht]
  unfold before
  by_cases hin : StartsWithInput f
  · rw [if_pos hin]
    by_cases hst : Started f evs
    · rw [if_neg (fun h => h.2 hst)]
      obtain ⟨rest, h1, h2⟩ := started_from hs evs hin hst
      rw [h1, ← h2]
      exact run_from hs rest 0 _ (eventsOf_pos f) rfl rfl ((entered_status f name 0 []).2.2 (eventsOf_pos f))
        (fun h => absurd h (entered_status f name 0 []).1)
    · rw [if_pos ⟨hin, hst⟩]
      exact run_from hs evs 0 _ (eventsOf_pos f) rfl rfl rfl (fun _ => hst)
  · rw [if_neg hin, if_neg (fun h => hin h.1)]
    exact run_from hs evs 0 _ (eventsOf_pos f) rfl rfl ((entered_status f name 0 []).2.2 (eventsOf_pos f))
      (fun h => absurd h (entered_status f name 0 []).1)

end Linear

end Rtcg.Harness
