import Verif.Model.Harness
import Verif.Spec.Json
import Verif.Proofs.Templates
import Verif.Proofs.HarnessTrack

/-
Machines that are the same but for the orders of their maps are run alike.
-/

namespace Rtcg

open Spec

namespace Harness

/-- The same configuration, whatever the order of the verdict map. -/
structure SameConfig (c c' : Config) : Prop where
  state : c.state = c'.state
  status : c.status = c'.status
  verdict : GoMap.Equiv c.verdict c'.verdict
  sent : c.sent = c'.sent

theorem same_aggregates {m m' : Stm} (h : List.Forall₂ SameState m.states m'.states) : m.aggregates = m'.aggregates := by
  unfold Stm.aggregates
  generalize ([] : List AggregateSet) = acc
  generalize m.states = l at h
  generalize m'.states = l' at h
  induction h generalizing acc with
  | nil => rfl
  | cons h1 _ ih =>
    rw [List.foldl_cons, List.foldl_cons, h1.1, h1.2.1]
    exact ih _

theorem same_firstHasIn {m m' : Stm} (h : List.Forall₂ SameState m.states m'.states) : TransitionContext.firstHasIn m = TransitionContext.firstHasIn m' := by
  unfold TransitionContext.firstHasIn
  cases hm : m.states with
  | nil => rw [hm] at h; cases hm' : m'.states with
    | nil => rfl
    | cons a l => rw [hm'] at h; cases h
  | cons a l =>
    rw [hm] at h
    cases hm' : m'.states with
    | nil => rw [hm'] at h; cases h
    | cons a' l' =>
      rw [hm'] at h
      cases h with
      | cons h1 _ => simp only [h1.2.1]

theorem same_context {m m' : Stm} (h : List.Forall₂ SameState m.states m'.states) : TransitionContext.make m = TransitionContext.make m' := by
  unfold TransitionContext.make
  rw [same_aggregates h, same_firstHasIn h]

theorem same_initial {m m' : Stm} (h : List.Forall₂ SameState m.states m'.states) : initial m = initial m' := by
  unfold initial Stm.initialState
  cases hm : m.states with
  | nil => rw [hm] at h; cases hm' : m'.states with
    | nil => rfl
    | cons a l => rw [hm'] at h; cases h
  | cons a l =>
    rw [hm] at h
    cases hm' : m'.states with
    | nil => rw [hm'] at h; cases h
    | cons a' l' =>
      rw [hm'] at h
      cases h with
      | cons h1 _ => simp only [h1.1]

theorem same_find {m m' : Stm} (h : List.Forall₂ SameState m.states m'.states) (id : Str) :
    Option.Rel (fun s s' => SameState s s' ∧ s ∈ m.states ∧ s' ∈ m'.states) (m.states.find? (fun s => s.id = id)) (m'.states.find? (fun s => s.id = id)) := by
  generalize m.states = l at h ⊢
  generalize m'.states = l' at h ⊢
  induction h with
  | nil => exact .none
  | @cons a b l l' h1 _ ih =>
    rw [List.find?_cons, List.find?_cons, h1.1]
    by_cases hb : b.id = id
    · simp only [hb, decide_true]
      exact .some ⟨h1, List.mem_cons_self .., List.mem_cons_self ..⟩
    · simp only [hb, decide_false]
      revert ih
      cases List.find? (fun s => decide (s.id = id)) l <;> cases List.find? (fun s => decide (s.id = id)) l' <;> intro ih
      · exact .none
      · cases ih
      · cases ih
      · cases ih with
        | some ih => exact .some ⟨ih.1, List.mem_cons_of_mem _ ih.2.1, List.mem_cons_of_mem _ ih.2.2⟩

theorem is_iff (v : Verdict) (o : Outcome) : v.is o = true ↔ ∃ k, (k, o) ∈ v := by
  induction v with
  | nil => simp [Verdict.is]
  | cons a v ih =>
    obtain ⟨k, o'⟩ := a
    by_cases h : o' = o
    · subst h; simp [Verdict.is]
    · simp only [Verdict.is, if_neg h, ih, List.mem_cons, Prod.mk.injEq]
      exact ⟨fun ⟨k, hk⟩ => ⟨k, .inr hk⟩, fun ⟨k, hk⟩ => ⟨k, hk.resolve_left (fun e => h e.2.symm)⟩⟩

theorem same_isFail {s s' : State} (h : SameState s s') (hw : GoMap.WF s.verdict) (hw' : GoMap.WF s'.verdict) :
    s.verdict.isFail = s'.verdict.isFail := by
  have hp := GoMap.perm_of_equiv hw hw' h.2.2
  rw [Bool.eq_iff_iff]
  unfold Verdict.isFail
  rw [is_iff, is_iff]
  exact ⟨fun ⟨k, hk⟩ => ⟨k, hp.mem_iff.1 hk⟩, fun ⟨k, hk⟩ => ⟨k, hp.mem_iff.2 hk⟩⟩

theorem same_finish {c c' : Config} (hc : SameConfig c c') (s : Status) : SameConfig (finish s c) (finish s c') := by
  unfold finish
  rw [hc.status]
  split
  · exact hc
  · split
    · exact ⟨hc.state, rfl, hc.verdict, hc.sent⟩
    · exact ⟨hc.state, rfl, hc.verdict, hc.sent⟩

theorem same_settle {s s' : State} (h : SameState s s') (hw : GoMap.WF s.verdict) (hw' : GoMap.WF s'.verdict) {c c' : Config} (hc : SameConfig c c') :
    SameConfig (settle s (setVerdicts s.verdict c)) (settle s' (setVerdicts s'.verdict c')) := by
  have hf := same_isFail h hw hw'
  have hi : s.hasIn = s'.hasIn ∧ s.in_ = s'.in_ := by
    unfold State.hasIn State.in_
    rw [h.2.1]
    exact ⟨rfl, rfl⟩
  have hc1 : SameConfig (setVerdicts s.verdict c) (setVerdicts s'.verdict c') := by
    refine ⟨hc.state, hc.status, ?_, hc.sent⟩
    intro k
    show GoMap.get? (s.verdict.foldl (fun m kv => GoMap.set m kv.1 kv.2) c.verdict) k = GoMap.get? (s'.verdict.foldl (fun m kv => GoMap.set m kv.1 kv.2) c'.verdict) k
    rw [get?_setAll _ _ hw, get?_setAll _ _ hw', h.2.2 k, hc.verdict k]
  generalize setVerdicts s.verdict c = d at hc1
  generalize setVerdicts s'.verdict c' = d' at hc1
  unfold settle
  rw [hf, hi.1, hi.2]
  split
  · exact same_finish hc1 _
  · split
    · split
      · exact ⟨hc1.state, rfl, hc1.verdict, hc1.sent⟩
      · exact ⟨hc1.state, rfl, hc1.verdict, by simp only [hc1.sent]⟩
    · exact ⟨hc1.state, rfl, hc1.verdict, hc1.sent⟩

section

variable {m m' : Stm} (h : List.Forall₂ SameState m.states m'.states) (hw : ∀ s ∈ m.states, GoMap.WF s.verdict)
  (hw' : ∀ s ∈ m'.states, GoMap.WF s.verdict)

include h hw hw'

theorem same_enter (id : Str) {c c' : Config} (hc : SameConfig c c') : SameConfig (enter m id c) (enter m' id c') := by
  unfold enter
  have hf := same_find h id
  have hd : SameConfig { c with state := id } { c' with state := id } := ⟨rfl, hc.status, hc.verdict, hc.sent⟩
  revert hf
  simp only
  cases List.find? (fun s => decide (s.id = id)) m.states <;> cases List.find? (fun s => decide (s.id = id)) m'.states <;> intro hf
  · exact hd
  · cases hf
  · cases hf
  · cases hf with
    | some hf => exact same_settle hf.1 (hw _ hf.2.1) (hw' _ hf.2.2) hd

theorem same_step {c c' : Config} (hc : SameConfig c c') (cb : Callback) : SameConfig (step m c cb) (step m' c' cb) := by
  cases cb with
  | timeout =>
    show SameConfig (timeoutCallback c) (timeoutCallback c')
    unfold timeoutCallback
    rw [hc.status]
    split
    · exact hc
    · exact same_finish hc _
  | start =>
    show SameConfig (initialDelayCallback m c) (initialDelayCallback m' c')
    unfold initialDelayCallback
    rw [same_context h, hc.status, same_initial h]
    split
    · split
      · exact hc
      · exact same_enter h hw hw' _ hc
    · exact hc
  | accepted =>
    show SameConfig (inputAcceptedCallback m c) (inputAcceptedCallback m' c')
    unfold inputAcceptedCallback
    rw [same_context h, hc.state]
    split
    · split
      · exact same_enter h hw hw' _ hc
      · exact hc
      · exact same_finish hc _
    · exact hc
  | output ch v =>
    show SameConfig (outputCallback m ch v c) (outputCallback m' ch v c')
    unfold outputCallback
    rw [same_context h, hc.state]
    split
    · exact hc
    · split
      · exact same_finish hc _
      · split
        · exact same_enter h hw hw' _ hc
        · exact same_finish hc _

theorem same_construct (ht : (GoSet.values m.tests).Perm (GoSet.values m'.tests)) : SameConfig (construct m) (construct m') := by
  have hc : SameConfig ⟨initial m, .waitStart, (GoSet.values m.tests).map (fun t => (t, Outcome.unset)), []⟩
      ⟨initial m', .waitStart, (GoSet.values m'.tests).map (fun t => (t, Outcome.unset)), []⟩ := by
    refine ⟨same_initial h, rfl, ?_, rfl⟩
    intro k
    have : ∀ l : List Str, GoMap.get? (l.map (fun t => (t, Outcome.unset))) k = if k ∈ l then some Outcome.unset else none := by
      intro l
      induction l with
      | nil => rfl
      | cons a l ih =>
        rw [List.map_cons, GoMap.get?, ih]
        by_cases hk : a = k
        · simp [hk]
        · simp [hk, Ne.symm hk]
    show GoMap.get? _ k = GoMap.get? _ k
    simp only [this, ht.mem_iff]
  unfold construct
  rw [same_context h]
  simp only
  split
  · exact ⟨hc.state, rfl, hc.verdict, rfl⟩
  · have := same_enter h hw hw' (initial m) hc
    rw [same_initial h] at this ⊢
    exact this

/-- Machines that are the same but for the orders of their maps are run alike. -/
theorem same_run (ht : (GoSet.values m.tests).Perm (GoSet.values m'.tests)) (cbs : List Callback) : SameConfig (run m cbs) (run m' cbs) := by
  have key : ∀ c c' : Config, SameConfig c c' → SameConfig (cbs.foldl (deliver m) c) (cbs.foldl (deliver m') c') := by
    induction cbs with
    | nil => exact fun _ _ h => h
    | cons cb cbs ih =>
      intro c c' hc
      refine ih _ _ ?_
      unfold deliver
      rw [hc.status]
      split
      · exact same_step h hw hw' hc cb
      · exact hc
  exact key _ _ (same_construct h hw hw' ht)

theorem same_animate (ht : (GoSet.values m.tests).Perm (GoSet.values m'.tests)) (ws : List (Str × Value)) :
    SameConfig (animate m ws) (animate m' ws) := by
  have key : ∀ c c' : Config, SameConfig c c' → SameConfig (ws.foldl (fun c w => if c.status.isRunning then animateStep m c w.1 w.2 else c) c)
      (ws.foldl (fun c w => if c.status.isRunning then animateStep m' c w.1 w.2 else c) c') := by
    induction ws with
    | nil => exact fun _ _ h => h
    | cons w ws ih =>
      intro c c' hc
      refine ih _ _ ?_
      simp only
      rw [hc.status]
      split
      · unfold animateStep
        rw [same_context h, hc.status]
        split
        · exact same_step h hw hw' hc _
        · split
          · exact same_step h hw hw' hc _
          · split
            · exact same_step h hw hw' hc _
            · split
              · exact same_step h hw hw' hc _
              · exact hc
      · exact hc
  exact key _ _ (same_construct h hw hw' ht)

end

end Harness

end Rtcg
