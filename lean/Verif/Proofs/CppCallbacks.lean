import Verif.Proofs.CppEntry
import Verif.Props.Templates

/-
Running the generated program: callbacks.
-/

namespace Rtcg

namespace Spec

namespace Cpp

namespace Sem

open Templates Rtcg.Cpp Tmpl Tree

section

variable {S : Src} {L : Lib} {fuel n : Nat} {st : St}

/-- One step of the machine: the fields hold the new configuration, what was sent meanwhile can be seen, and ROS is shut down if the test has
ended by it -/
def Did (S : Src) (L : Lib) (p : List Str) (c c' : Harness.Config) (st st' : St) : Prop :=
  Core S p c' st' ∧ Stay p st st' ∧ ∃ new, c'.sent = c.sent ++ new ∧
    Steps S.v st st' (new.map (sendEffect L S.U S.v)) (decide (S.v = .ros) && c.status.isRunning && !c'.status.isRunning)

theorem Did.nothing {p : List Str} {c : Harness.Config} {st' : St} (hc : Core S p c st) (hm : st'.mem = st.mem) (h : Steps S.v st st' [] false) :
    Did S L p c c st st' := by
  refine ⟨hc.congr hm, Stay.of_mem hm, [], by simp, ?_⟩
  have : (decide (S.v = Variant.ros) && c.status.isRunning && !c.status.isRunning) = false := by
    cases c.status.isRunning <;> simp
  rw [this]
  exact h

/-- First something quiet, then a step -/
theorem Did.after {p : List Str} {c c' : Harness.Config} {st1 st' : St} (hm : st1.mem = st.mem) (h : Steps S.v st st1 [] false)
    (h' : Did S L p c c' st1 st') : Did S L p c c' st st' := by
  obtain ⟨h1, h2, new, h3, h4⟩ := h'
  refine ⟨h1, (Stay.of_mem hm).trans h2, new, h3, ?_⟩
  have := h.trans h4
  rw [List.nil_append, Bool.false_or] at this
  exact this

/-- The same with other local variables -/
theorem Did.congr {p : List Str} {c c' : Harness.Config} {st0 st1 st2 : St} (h : Did S L p c c' st1 st2) (h0 : st1.mem = st0.mem)
    (he : st1.eff = st0.eff) (hi : st1.input = st0.input) (hv : st1.events = st0.events) :
    Did S L p c c' st0 { st2 with loc := st0.loc } := by
  obtain ⟨h1, h2, new, h3, h4⟩ := h
  refine ⟨h1.congr rfl, ?_, new, h3, h4.congr he hi hv rfl rfl rfl rfl⟩
  intro x hx hx'
  rw [← h0]
  exact h2 x hx hx'

/-! ### statements -/

/-- `enterX();` -/
theorem exec_enter (hS : Setup S L) {f : Str} {p : List Str} {s : State} (hs : s ∈ S.m.states) {c : Harness.Config} (hc : Core S p c st)
    (hP : s.hasIn = true → Pubs S L p st) :
    ∃ st', execS (cx S L fuel (n + 3) [SM, f] (some p)) (enterS S.U s.id) st = .ok .next st' ∧ Did S L p c (Harness.enter S.m s.id c) st st' ∧
      st'.loc = st.loc := by
  obtain ⟨st', r, h1, h2, h3, h4⟩ := run_enter (n := n) (fuel := fuel) hS hs hc hP
  refine ⟨st', execS_expr (call_own hS (mem_entry hs) ?_ evalList_nil r), ⟨h1, h4, _, h2, h3⟩, h3.loc⟩
  rfl

theorem did_end (hS : Setup S L) {f : Str} {p : List Str} {c : Harness.Config} (hc : Core S p c st) (s : Status) :
    ∃ st', execS (cx S L fuel (n + 2) [SM, f] (some p)) (endS (statusWord s)) st = .ok .next st' ∧ Did S L p c (Harness.finish s c) st st' ∧
      st'.loc = st.loc := by
  obtain ⟨st', r, h1, h2, h3⟩ := exec_end (n := n) (fuel := fuel) (f := f) hS hc s
  exact ⟨st', r, ⟨h1, h3, [], by rw [finish_eq]; simp, h2⟩, h2.loc⟩

theorem eval_stateName (hS : Setup S L) {f : Str} {p : List Str} {c : Harness.Config} (hc : Core S p c st) :
    ∃ id, evalE (cx S L fuel (n + 2) [SM, f] (some p)) (Tree.call [c!"stateName"] []) st = .ok (.str id) st := by
  obtain ⟨s, hs, e⟩ := List.mem_map.1 hc.known
  refine ⟨s.id, call_own hS mem_stateName (by decide) evalList_nil (run_stateName hS hs ?_)⟩
  rw [hc.state, e]

theorem veq_status (a b : Status) : veq (statusVal a) (statusVal b) = some (decide (a = b)) := by
  cases a <;> cases b <;> decide

/-! ### timeouts and the initial delay -/

theorem mem_timeout : (c!"timeoutCallback", timeoutItem S.U S.v) ∈ S.sm := by
  unfold Src.sm smFns
  simp

/-- Locals that parameters make -/
theorem bind_ignored {v : Variant} {args : List Val} (ps : List Param) (h : ps.length = args.length) :
    ∃ loc, bindParams ps args = some loc ∧ loc.map (·.1) = ps.map (·.2) := by
  induction ps generalizing args with
  | nil =>
    cases args with
    | nil => exact ⟨[], rfl, rfl⟩
    | cons => simp at h
  | cons p ps ih =>
    cases args with
    | nil => simp at h
    | cons a args =>
      simp only [List.length_cons, Nat.add_right_cancel_iff] at h
      obtain ⟨loc, h1, h2⟩ := ih h
      refine ⟨(p.2, p.1, a) :: loc, ?_, ?_⟩
      · rw [bindParams, h1]; rfl
      · rw [List.map_cons, h2, List.map_cons]

theorem getLocal_none {x : Str} (h : x ∉ st.loc.map (·.1)) : getLocal st x = none := by
  unfold getLocal
  rw [Option.map_eq_none_iff, List.find?_eq_none]
  intro l hl he
  simp only [decide_eq_true_eq] at he
  exact h (List.mem_map.2 ⟨l, hl, he⟩)

theorem timer_params {v : Variant} {args : List Val} (h : args.length = if v = Variant.ros then 1 else 0) :
    ∃ loc, bindParams (timerParams v) args = some loc ∧ ∀ x ∈ loc.map (·.1), x = c!"event" := by
  obtain ⟨loc, h1, h2⟩ := bind_ignored (v := v) (timerParams v) (args := args) (by unfold timerParams; rw [h]; split <;> rfl)
  refine ⟨loc, h1, ?_⟩
  rw [h2]
  unfold timerParams
  split <;> simp

theorem accepted_params {v : Variant} {args : List Val} (h : args.length = if v = Variant.ros then 1 else 0) :
    ∃ loc, bindParams (acceptedParams v) args = some loc ∧ ∀ x ∈ loc.map (·.1), x = c!"msg" := by
  obtain ⟨loc, h1, h2⟩ := bind_ignored (v := v) (acceptedParams v) (args := args) (by unfold acceptedParams; rw [h]; split <;> rfl)
  refine ⟨loc, h1, ?_⟩
  rw [h2]
  unfold acceptedParams
  split <;> simp

theorem run_timeout (hS : Setup S L) {p : List Str} {c : Harness.Config} (hc : Core S p c st) {args : List Val}
    (ha : args.length = if S.v = Variant.ros then 1 else 0) :
    ∃ st', callFn S.prog L fuel (n + 4) [SM, c!"timeoutCallback"] (some p) args st = .ok .void st' ∧
      Did S L p c (Harness.timeoutCallback c) st st' := by
  obtain ⟨loc, hb, hloc⟩ := timer_params ha
  let C := cx S L fuel (n + 3) [SM, c!"timeoutCallback"] (some p)
  let st0 : St := { st with loc := loc }
  have hc0 : Core S p c st0 := hc.congr rfl
  have l0 : ∀ x, x ≠ c!"event" → getLocal st0 x = none := fun x hx => getLocal_none (fun h => hx (hloc x h))
  have ht := eval_not (eval_running (n := n + 2) (fuel := fuel) (L := L) (S := S) (q := [SM, c!"timeoutCallback"]) (.inl ⟨_, rfl⟩)
    (eval_status_ (l0 _ (by decide)) hc0.status))
  by_cases hr : c.status.isRunning = true
  · obtain ⟨st1, r1, s1, m1⟩ := exec_log (S := S) (fuel := fuel) (n := n + 3) (st := st0) (this := some p) hS
      (shallow_sm c!"timeoutCallback") (s := c!"Timeout!") hS.info evalList_nil (by decide)
    obtain ⟨st2, r2, d2, l2⟩ := did_end (n := n + 1) (fuel := fuel) (f := c!"timeoutCallback") hS (hc0.congr m1) .timeout
    have hx : execSs C (bodyOf (timeoutItem S.U S.v)) st0 = .ok .next st2 := by
      unfold timeoutItem bodyOf
      refine (execSs_cons (st' := st0) ?_).trans ((execSs_cons r1).trans (execSs_cons r2))
      rw [execS_ite ht, if_neg (by simp [hr])]
      exact inScope_skip
    refine ⟨_, callFn_run (fn_of hS mem_timeout) hb hx rfl, ?_⟩
    have e : Harness.timeoutCallback c = Harness.finish .timeout c := by
      unfold Harness.timeoutCallback
      rw [if_neg (by simp [hr])]
    rw [e]
    exact (Did.after m1 s1 d2).congr rfl rfl rfl rfl
  · have hx : execSs C (bodyOf (timeoutItem S.U S.v)) st0 = .ok (.ret .void) st0 := by
      unfold timeoutItem bodyOf
      refine execSs_stop ?_ (by simp)
      rw [execS_ite ht, if_pos (by simp [hr])]
      exact inScope_ret
    refine ⟨_, callFn_run (fn_of hS mem_timeout) hb hx rfl, ?_⟩
    have e : Harness.timeoutCallback c = c := by
      unfold Harness.timeoutCallback
      rw [if_pos (by simp [hr])]
    rw [e]
    exact (Did.nothing hc0 rfl Steps.refl).congr rfl rfl rfl rfl

theorem mem_delay (h : S.tc.firstStateHasIn = true) : (c!"initialDelayCallback", delayItem S.U S.v S.first) ∈ S.sm := by
  unfold Src.sm smFns
  simp [h]

/-- The first state -/
theorem first_state (hS : Setup S L) : ∃ s ∈ S.m.states, S.m.states.head? = some s ∧ S.first = s.id := by
  have h := hS.states
  unfold Src.first Harness.initial Stm.initialState
  cases hm : S.m.states with
  | nil => exact absurd hm h
  | cons s l => exact ⟨s, by simp, rfl, rfl⟩

theorem run_delay (hS : Setup S L) {p : List Str} {c : Harness.Config} (hc : Core S p c st) (hP : Pubs S L p st)
    (hf : S.tc.firstStateHasIn = true) {args : List Val} (ha : args.length = if S.v = Variant.ros then 1 else 0) :
    ∃ st', callFn S.prog L fuel (n + 4) [SM, c!"initialDelayCallback"] (some p) args st = .ok .void st' ∧
      Did S L p c (Harness.initialDelayCallback S.m c) st st' := by
  obtain ⟨loc, hb, hloc⟩ := timer_params ha
  obtain ⟨s, hs, _, hfirst⟩ := first_state hS
  let C := cx S L fuel (n + 3) [SM, c!"initialDelayCallback"] (some p)
  let st0 : St := { st with loc := loc }
  have hc0 : Core S p c st0 := hc.congr rfl
  have l0 : ∀ x, x ≠ c!"event" → getLocal st0 x = none := fun x hx => getLocal_none (fun h => hx (hloc x h))
  have ht := eval_ne (eval_status_ (S := S) (L := L) (n := n + 3) (fuel := fuel) (f := c!"initialDelayCallback") (l0 _ (by decide)) hc0.status)
    (eval_status (shallow_sm _) .waitStart) (veq_status c.status .waitStart)
  by_cases hr : c.status = .waitStart
  · obtain ⟨st1, r1, s1, m1⟩ := exec_log (S := S) (fuel := fuel) (n := n + 3) (st := st0) (this := some p) hS
      (shallow_sm c!"initialDelayCallback") (s := c!"Initial delay finished, now entering first state.") hS.info evalList_nil (by decide)
    obtain ⟨st2, r2, d2, l2⟩ := exec_enter (n := n) (fuel := fuel) (f := c!"initialDelayCallback") hS hs (hc0.congr m1)
      (fun _ => hP.stay hS (Stay.of_mem m1))
    have hx : execSs C (bodyOf (delayItem S.U S.v S.first)) st0 = .ok .next st2 := by
      unfold delayItem bodyOf
      rw [hfirst]
      refine (execSs_cons (st' := st0) ?_).trans ((execSs_cons r1).trans (execSs_cons r2))
      refine (execS_ite ht).trans ?_
      rw [if_neg (by simp [hr])]
      exact inScope_skip
    refine ⟨_, callFn_run (fn_of hS (mem_delay hf)) hb hx rfl, ?_⟩
    have e : Harness.initialDelayCallback S.m c = Harness.enter S.m s.id c := by
      unfold Harness.initialDelayCallback
      unfold Src.tc at hf
      rw [if_pos hf, if_neg (by simp [hr]), ← hfirst]
      rfl
    rw [e]
    exact (Did.after m1 s1 d2).congr rfl rfl rfl rfl
  · have hx : execSs C (bodyOf (delayItem S.U S.v S.first)) st0 = .ok (.ret .void) st0 := by
      unfold delayItem bodyOf
      refine execSs_stop ?_ (by simp)
      refine (execS_ite ht).trans ?_
      rw [if_pos (by simp [hr])]
      exact inScope_ret
    refine ⟨_, callFn_run (fn_of hS (mem_delay hf)) hb hx rfl, ?_⟩
    have e : Harness.initialDelayCallback S.m c = c := by
      unfold Harness.initialDelayCallback
      split <;> first | rfl | rw [if_pos hr]
    rw [e]
    exact (Did.nothing hc0 rfl Steps.refl).congr rfl rfl rfl rfl

/-! ### switches over maps -/

/-- Keys that are IDs of states -/
def Keyed (S : Src) {α : Type} (M : GoMap Str α) : Prop := GoMap.WF M ∧ ∀ e ∈ M, e.1 ∈ S.m.states.map (·.id)

theorem keyed_global {α : Type} {M : GoMap Str α} (hM : Keyed S M) {f : Str} {this : Option (List Str)} :
    ∀ e ∈ sortEntries M, (cx S L fuel n [SM, f] this).global [c!"State", enumField S.U e.1] = some (stateVal S.U e.1) := by
  intro e he
  obtain ⟨s, hs, h⟩ := List.mem_map.1 (hM.2 e ((Exec.mem_sortEntries _ _).1 he))
  rw [← h]
  exact global_state (shallow_sm f) hs

theorem state_key (hS : Setup S L) {a b : Str} (ha : a ∈ S.m.states.map (·.id)) (hb : b ∈ S.m.states.map (·.id))
    (h : enumField S.U a = enumField S.U b) : a = b := by
  obtain ⟨s, hs, rfl⟩ := List.mem_map.1 ha
  obtain ⟨s', hs', rfl⟩ := List.mem_map.1 hb
  rw [state_inj hS hs hs' h]

theorem keyed_hit (hS : Setup S L) {α : Type} {M : GoMap Str α} (hM : Keyed S M) {f : Str} {this : Option (List Str)} {body : Str × α → List Stmt}
    {rest : List Stmt} {id : Str} {x : α} (hx : GoMap.get? M id = some x)
    (hb : ∀ e ∈ M, ∀ s ∈ body e, ∀ v, (cx S L fuel n [SM, f] this).isCase v s = false) :
    ∃ tail, execFrom (cx S L fuel n [SM, f] this)
      (if (cx S L fuel n [SM, f] this).hasCase (stateVal S.U id) (stmtsOf (labelled S.U (·.1) body (sortEntries M) ++ rest))
        then (cx S L fuel n [SM, f] this).isCase (stateVal S.U id) else isDefault)
      false (stmtsOf (labelled S.U (·.1) body (sortEntries M) ++ rest)) = execSs (cx S L fuel n [SM, f] this) (stmtsOf (body (id, x) ++ tail)) := by
  have hmem := (GoMap.get?_eq_some_iff hM.1).1 hx
  refine switch_hit (x := (id, x)) ((Exec.mem_sortEntries _ _).2 hmem) (keyed_global hM) ?_ ?_
  · intro e he h
    have he' := (Exec.mem_sortEntries _ _).1 he
    have hk := state_key hS (hM.2 _ he') (hM.2 _ hmem) h
    have h1 := (GoMap.get?_eq_some_iff hM.1).2 (show (e.1, e.2) ∈ M from he')
    rw [hk] at h1
    simp only at h1
    rw [hx] at h1
    cases h1
    exact Prod.ext hk rfl
  · intro e he s hs
    exact hb e ((Exec.mem_sortEntries _ _).1 he) s hs _

theorem keyed_miss (hS : Setup S L) {α : Type} {M : GoMap Str α} (hM : Keyed S M) {f : Str} {this : Option (List Str)} {body : Str × α → List Stmt}
    {rest : List Stmt} {id : Str} (hid : id ∈ S.m.states.map (·.id)) (hx : GoMap.get? M id = none)
    (hb : ∀ e ∈ M, ∀ s ∈ body e, ∀ v, (cx S L fuel n [SM, f] this).isCase v s = false ∧ isDefault s = false)
    (hr : ∀ s ∈ rest, ∀ v, (cx S L fuel n [SM, f] this).isCase v s = false) :
    execFrom (cx S L fuel n [SM, f] this)
      (if (cx S L fuel n [SM, f] this).hasCase (stateVal S.U id) (stmtsOf (labelled S.U (·.1) body (sortEntries M) ++ .dflt :: rest))
        then (cx S L fuel n [SM, f] this).isCase (stateVal S.U id) else isDefault)
      false (stmtsOf (labelled S.U (·.1) body (sortEntries M) ++ .dflt :: rest)) = execSs (cx S L fuel n [SM, f] this) (stmtsOf rest) := by
  refine switch_miss (keyed_global hM) ?_ ?_ (fun s hs => hr s hs _)
  · intro e he h
    have he' := (Exec.mem_sortEntries _ _).1 he
    unfold stateVal at h
    simp only [Val.enum.injEq, List.cons.injEq, and_true, true_and] at h
    have hk := state_key hS (hM.2 _ he') hid h
    rw [GoMap.get?_eq_none_iff] at hx
    apply hx
    rw [← hk]
    exact List.mem_map.2 ⟨e, he', rfl⟩
  · intro e he s hs
    exact hb e ((Exec.mem_sortEntries _ _).1 he) s hs _

/-! ### the input callback -/

theorem mem_accepted (h : S.tc.hasIn = true) : (c!"inputAcceptedCallback", acceptedItem S.U S.v S.tc.inMerged) ∈ S.sm := by
  unfold Src.sm smFns
  simp [h]

theorem merged_keyed : Keyed S S.tc.inMerged := by
  refine ⟨Templates.inMerged_wf S.m, ?_⟩
  intro e he
  obtain ⟨⟨s, hs, h⟩, _⟩ := Templates.merged_entry (m := S.m) (sid := e.1) (l := e.2) he
  exact List.mem_map.2 ⟨s, hs, h⟩

/-- No labels among other statements -/
theorem logged_noCase {C : Ctx} {v : Variant} {U : Unicode} {level : Str} {e : Expr} {es : List Expr} (x : Val) :
    C.isCase x (logged U v level e es) = false ∧ isDefault (logged U v level e es) = false := by
  unfold logged
  split <;> exact ⟨rfl, rfl⟩

theorem merged_ne (hS : Setup S L) {id : Str} {ts : List Transition} (h : GoMap.get? S.tc.inMerged id = some ts) :
    ∃ t l, ts = t :: l ∧ ∃ s ∈ S.m.states, s.id = t.next := by
  have hmem := (GoMap.get?_eq_some_iff (Templates.inMerged_wf S.m)).1 h
  obtain ⟨h1, h2⟩ := C39_inMerged S.m id
  have hne : ¬ (GoMap.get? (TransitionContext.make S.m).inMerged id = none) := by
    show ¬ (GoMap.get? S.tc.inMerged id = none)
    rw [h]; simp
  rw [h1, Classical.not_not] at hne
  obtain ⟨s, hs, hid, ss, hss, hk⟩ := hne
  have hin : ts ≠ [] := by
    rintro rfl
    have hp := (h2 [] h).2
    have h0 := hp.length_eq
    obtain ⟨t, ht⟩ := List.exists_mem_of_ne_nil _ (hS.some_ s hs ss hss)
    have : t ∈ inputsAt S.m id := by
      unfold inputsAt
      exact List.mem_flatMap.2 ⟨s, List.mem_filter.2 ⟨hs, by simpa using hid⟩, List.mem_flatMap.2 ⟨ss, List.mem_filter.2 ⟨hss, by simpa using hk⟩, ht⟩⟩
    have := List.length_pos_of_mem this
    simp only [List.length_nil] at h0
    omega
  cases ts with
  | nil => exact absurd rfl hin
  | cons t l =>
    refine ⟨t, l, rfl, ?_⟩
    obtain ⟨s', hs', ss', hss', ht⟩ := (Templates.merged_entry (m := S.m) hmem).2 t (List.mem_cons_self ..)
    obtain ⟨s2, hs2, e⟩ := List.mem_map.1 (hS.names.nexts s' hs' ss' hss' t ht)
    exact ⟨s2, hs2, e⟩

theorem run_accepted (hS : Setup S L) {p : List Str} {c : Harness.Config} (hc : Core S p c st) (hP : Pubs S L p st)
    (hf : S.tc.hasIn = true) {args : List Val} (ha : args.length = if S.v = Variant.ros then 1 else 0) :
    ∃ st', callFn S.prog L fuel (n + 4) [SM, c!"inputAcceptedCallback"] (some p) args st = .ok .void st' ∧
      Did S L p c (Harness.inputAcceptedCallback S.m c) st st' := by
  obtain ⟨loc, hb, hloc⟩ := accepted_params ha
  let C := cx S L fuel (n + 3) [SM, c!"inputAcceptedCallback"] (some p)
  let st0 : St := { st with loc := loc }
  have hc0 : Core S p c st0 := hc.congr rfl
  have l0 : ∀ x, x ≠ c!"msg" → getLocal st0 x = none := fun x hx => getLocal_none (fun h => hx (hloc x h))
  have hs := eval_state_ (S := S) (L := L) (n := n + 3) (fuel := fuel) (f := c!"inputAcceptedCallback") (l0 _ (by decide)) hc0.state
  let body : Str × List Transition → List Stmt := fun e => [logged S.U S.v c!"info" (.str (c!"Accepted input on state " ++ e.1 ++ c!" as expected.")) [],
    .expr (Tree.call [e.2.head?.elim [] (fun t => stateEntry S.U t.next)] []), .brk]
  let rest : List Stmt := [logged S.U S.v c!"error" (.str c!"Accepted input in unexpected state") [Tree.call [c!"stateName"] []], endS c!"BUG"]
  have hbody : ∀ e ∈ S.tc.inMerged, ∀ s ∈ body e, ∀ v, C.isCase v s = false ∧ isDefault s = false := by
    intro e _ s hs v
    simp only [body, List.mem_cons, List.not_mem_nil, or_false] at hs
    rcases hs with rfl | rfl | rfl
    · exact logged_noCase v
    · exact ⟨rfl, rfl⟩
    · exact ⟨rfl, rfl⟩
  have hrest : ∀ s ∈ rest, ∀ v, C.isCase v s = false := by
    intro s hs v
    simp only [rest, List.mem_cons, List.not_mem_nil, or_false] at hs
    rcases hs with rfl | rfl
    · exact (logged_noCase v).1
    · rfl
  have hitem : bodyOf (acceptedItem S.U S.v S.tc.inMerged) =
      stmtsOf [.switch (nm c!"state_") (stmtsOf (labelled S.U (·.1) body (sortEntries S.tc.inMerged) ++ .dflt :: rest))] := rfl
  have hgoal : ∃ st2, execSs C (bodyOf (acceptedItem S.U S.v S.tc.inMerged)) st0 = .ok .next st2 ∧
      Did S L p c (Harness.inputAcceptedCallback S.m c) st0 st2 := by
    rw [hitem]
    cases hg : GoMap.get? S.tc.inMerged c.state with
    | some ts =>
      obtain ⟨t, l, rfl, s, hst, hnext⟩ := merged_ne hS hg
      have e : Harness.inputAcceptedCallback S.m c = Harness.enter S.m s.id c := by
        unfold Harness.inputAcceptedCallback
        unfold Src.tc at hf hg
        simp only [hf, if_true, hg, hnext]
      rw [e]
      obtain ⟨st1, r1, s1, m1⟩ := exec_log (S := S) (fuel := fuel) (n := n + 3) (st := st0) (this := some p) hS
        (shallow_sm c!"inputAcceptedCallback") (s := c!"Accepted input on state " ++ c.state ++ c!" as expected.") hS.info evalList_nil rfl
      obtain ⟨st2, r2, d2, l2⟩ := exec_enter (n := n) (fuel := fuel) (f := c!"inputAcceptedCallback") hS hst (hc0.congr m1)
        (fun _ => hP.stay hS (Stay.of_mem m1))
      obtain ⟨tail, ht⟩ := keyed_hit (n := n + 3) (fuel := fuel) (L := L) hS (merged_keyed (S := S)) (f := c!"inputAcceptedCallback") (this := some p)
        (body := body) (rest := .dflt :: rest) hg (fun e he s hs v => (hbody e he s hs v).1)
      have hx : execFrom C (if C.hasCase (stateVal S.U c.state) (stmtsOf (labelled S.U (·.1) body (sortEntries S.tc.inMerged) ++ .dflt :: rest))
          then C.isCase (stateVal S.U c.state) else isDefault) false
          (stmtsOf (labelled S.U (·.1) body (sortEntries S.tc.inMerged) ++ .dflt :: rest)) st0 = .ok .brk st2 := by
        rw [ht]
        refine (execSs_cons r1).trans ((execSs_cons (st' := st2) ?_).trans (execSs_stop rfl (by simp)))
        show execS C (.expr (Tree.call [stateEntry S.U t.next] [])) st1 = _
        rw [← hnext]
        exact r2
      refine ⟨st2, execSs_cons (execS_switch hs hx (l2.trans s1.loc)), Did.after m1 s1 d2⟩
    | none =>
      have e : Harness.inputAcceptedCallback S.m c = Harness.finish .bug c := by
        unfold Harness.inputAcceptedCallback
        unfold Src.tc at hf hg
        simp only [hf, if_true, hg]
      rw [e]
      obtain ⟨id, hn⟩ := eval_stateName (n := n + 1) (fuel := fuel) (f := c!"inputAcceptedCallback") hS hc0
      obtain ⟨st1, r1, s1, m1⟩ := exec_log (S := S) (fuel := fuel) (n := n + 3) (st := st0) (this := some p) hS
        (shallow_sm c!"inputAcceptedCallback") (s := c!"Accepted input in unexpected state") hS.error
        (evalList_cons hn evalList_nil) (by decide)
      obtain ⟨st2, r2, d2, l2⟩ := did_end (n := n + 1) (fuel := fuel) (f := c!"inputAcceptedCallback") hS (hc0.congr m1) .bug
      have hx : execFrom C (if C.hasCase (stateVal S.U c.state) (stmtsOf (labelled S.U (·.1) body (sortEntries S.tc.inMerged) ++ .dflt :: rest))
          then C.isCase (stateVal S.U c.state) else isDefault) false
          (stmtsOf (labelled S.U (·.1) body (sortEntries S.tc.inMerged) ++ .dflt :: rest)) st0 = .ok .next st2 := by
        rw [keyed_miss (n := n + 3) (fuel := fuel) (L := L) hS (merged_keyed (S := S)) (f := c!"inputAcceptedCallback") (this := some p)
          (body := body) (rest := rest) hc.known hg hbody hrest]
        exact (execSs_cons r1).trans (execSs_cons r2)
      exact ⟨st2, execSs_cons (execS_switch hs hx (l2.trans s1.loc)), Did.after m1 s1 d2⟩
  obtain ⟨st2, hx, d⟩ := hgoal
  exact ⟨_, callFn_run (fn_of hS (mem_accepted hf)) hb hx rfl, d.congr rfl rfl rfl rfl⟩

/-! ### output callbacks -/

theorem mem_outItem {a : AggregateSet} (ha : a ∈ S.tc.out) : (callbackName a.channel.name, outItem S.U S.v a) ∈ S.sm := by
  unfold Src.sm smFns
  simp only [List.mem_append]
  exact .inl (.inr (List.mem_map.2 ⟨a, ha, rfl⟩))

theorem states_keyed {a : AggregateSet} (ha : a ∈ S.m.aggregates) : Keyed S a.states := by
  refine ⟨((C38_aggregates S.m).2 a ha).1, ?_⟩
  intro e he
  obtain ⟨⟨s, hs, h⟩, _⟩ := Templates.agg_entry (m := S.m) ha (sid := e.1) (l := e.2) he
  exact List.mem_map.2 ⟨s, hs, h⟩

theorem eval_compare {q : List Str} {this : Option (List Str)} {x : Str} {a b : Str}
    (hx : evalE (cx S L fuel n q this) (.name [x]) st = .ok (.str a) st) :
    evalE (cx S L fuel n q this) (mcall x c!"compare" [.str b]) st = .ok (.int (if a = b then 0 else 1)) st := by
  unfold mcall
  rw [eval_dot, bind_ok hx, evalS]
  simp only [bind_eq, evalA_argsOf]
  rw [bind_ok evalList_one]
  have : Ctx.callMethod (cx S L fuel n q this) (.str a) c!"compare" [] [.str b] st = .ok (.int (if a = b then 0 else 1)) st := by
    unfold Ctx.callMethod
    rfl
  rw [bind_ok this, evalS]
  rfl

theorem eval_test {q : List Str} {this : Option (List Str)} {x y : Value} {t : CType} (hl : getLocal st c!"value" = some (t, valueVal y)) (hy : y ≠ .none) (hx : x ≠ .none)
    (hk : SameKind x y) : evalE (cx S L fuel n q this) (testE x) st = .ok (.bool (decide (x = y))) st := by
  have hn : evalE (cx S L fuel n q this) (.name [c!"value"]) st = .ok (valueVal y) st := name_local hl
  unfold SameKind at hk
  cases x with
  | none => exact absurd rfl hx
  | enum a =>
    cases y with
    | none => exact absurd rfl hy
    | int j =>
      exfalso
      revert hk
      unfold Value.type
      simp only
      split <;> decide
    | enum b =>
      refine (eval_eq (eval_compare hn) (y := .int 0) (st2 := st) ?_ (r := decide (b = a)) ?_).trans ?_
      · rw [evalE]; rfl
      · unfold veq
        by_cases h : b = a <;> simp [h, Value.stringValue]
      · simp only [Value.enum.injEq]
        rw [show decide (b = a) = decide (a = b) from decide_eq_decide.2 eq_comm]
  | int i =>
    have hne : (Value.int i).type.isEnum = false := by
      unfold Value.type
      simp only
      split <;> decide
    cases y with
    | none => exact absurd rfl hy
    | enum b =>
      rw [hne] at hk
      cases hk
    | int j =>
      have e : testE (.int i) = .eq c!"==" (nm c!"value") (valueE (.int i)) := by
        unfold testE
        rw [hne]
        rfl
      rw [e]
      refine (eval_eq hn (eval_value (by simp)) (r := decide (j.toInt = i.toInt)) rfl).trans ?_
      have : decide (j.toInt = i.toInt) = decide (Value.int i = Value.int j) := by
        apply decide_eq_decide.2
        rw [Value.int.injEq, Int64.toInt_inj]
        exact eq_comm
      rw [this]

/-- The chain of tests -/
theorem exec_chain (hS : Setup S L) {f : Str} {p : List Str} {c c' : Harness.Config} {y : Value} {t : CType} {other : Stmt} {st2 : St} (hc : Core S p c st)
    (hP : Pubs S L p st) (hl : getLocal st c!"value" = some (t, valueVal y)) (hy : y ≠ .none) (ts : List Transition)
    (hts : ∀ t ∈ ts, t.value ≠ .none ∧ SameKind t.value y ∧ t.next ∈ S.m.states.map (·.id))
    (ho : execS (cx S L fuel (n + 3) [SM, f] (some p)) other st = .ok .next st2) (hd : Did S L p c c' st st2) (ho2 : st2.loc = st.loc) :
    ∃ st', execS (cx S L fuel (n + 3) [SM, f] (some p)) (Tree.chain S.U other ts) st = .ok .next st' ∧
      Did S L p c (match ts.find? (fun t => t.value = y) with
        | some t => Harness.enter S.m t.next c
        | none => c') st st' ∧ st'.loc = st.loc := by
  induction ts with
  | nil => exact ⟨st2, ho, hd, ho2⟩
  | cons x ts ih =>
    obtain ⟨h1, h2, h3⟩ := hts x (List.mem_cons_self ..)
    have ht := eval_test (S := S) (L := L) (fuel := fuel) (n := n + 3) (q := [SM, f]) (this := some p) hl hy h1 h2
    have e := execS_ite (a := enterS S.U x.next) (b := chain S.U other ts) ht
    rw [List.find?_cons]
    by_cases hx : x.value = y
    · obtain ⟨s, hs, hid⟩ := List.mem_map.1 h3
      rw [← hid] at e
      obtain ⟨st', r, d, l⟩ := exec_enter (n := n) (fuel := fuel) (f := f) hS hs hc (fun _ => hP)
      refine ⟨st', ?_, ?_, l⟩
      · unfold Tree.chain
        rw [← hid, e, if_pos (by simp [hx])]
        exact inScope_same r l
      · simp only [hx, decide_true, ← hid]
        exact d
    · obtain ⟨st', r, d, l⟩ := ih (fun t ht => hts t (List.mem_cons_of_mem _ ht))
      refine ⟨st', ?_, ?_, l⟩
      · unfold Tree.chain
        rw [e, if_neg (by simp [hx])]
        exact inScope_same r l
      · simp only [hx, decide_false]
        exact d

theorem chain_noCase {C : Ctx} {U : Unicode} {other : Stmt} (v : Val) (h : C.isCase v other = false ∧ isDefault other = false) (ts : List Transition) :
    C.isCase v (chain U other ts) = false ∧ isDefault (chain U other ts) = false := by
  cases ts with
  | nil => exact h
  | cons t ts => exact ⟨rfl, rfl⟩

theorem run_output (hS : Setup S L) {p : List Str} {c : Harness.Config} (hc : Core S p c st) (hP : Pubs S L p st) {ch : Channel} {y : Value}
    (hcb : HasCallback S.m (.output ch y)) {args : List Val} (ha : ArgsOf L S.U S.v (.output ch y) args) :
    ∃ st', callFn S.prog L fuel (n + 4) [SM, callbackName ch.name] (some p) args st = .ok .void st' ∧
      Did S L p c (Harness.outputCallback S.m ch y c) st st' := by
  obtain ⟨⟨s0, hs0, ss0, hss0, hch⟩, hkind, hy, hsame⟩ := hcb
  obtain ⟨msg, rfl, hmsg⟩ := ha
  -- the aggregate
  have hfind := Harness.find_out S.m ch
  cases hfo : (TransitionContext.make S.m).out.find? (fun a => a.channel = ch) with
  | none =>
    rw [hfo] at hfind
    exact absurd ⟨hkind, s0, hs0, ss0, hss0, hch⟩ hfind
  | some a =>
    rw [hfo] at hfind
    obtain ⟨ham, hac, _⟩ := hfind
    subst hac
    have hao : a ∈ S.tc.out := List.mem_of_find?_eq_some hfo
    let f := callbackName a.channel.name
    let C := cx S L fuel (n + 3) [SM, f] (some p)
    let T : CType := ⟨true, [channelMsgType S.U a.channel.name], []⟩
    let st0 : St := { st with loc := [(c!"msg", T, msg)] }
    have hb : bindParams (outParams S.U a.channel) [msg] = some [(c!"msg", T, msg)] := rfl
    -- the conversion
    have hk := (hS.lib.convert s0 hs0 ss0 hss0).2
    have hcl := (hS.names.convert s0 hs0 ss0 hss0).2
    rw [hch] at hk hcl
    have hconv := call_conv (n := n + 3) (fuel := fuel) (st := st0) (st1 := st0) (v := msg) (e := nm c!"msg") hS (q := [SM, f]) (.inl ⟨f, rfl⟩)
      (this := some p) (.inr (convertFrom_head S.U a.channel.name)) hk hcl (nm_local getLocal_one)
    rw [hmsg] at hconv
    have hq := conv_quiet S.v (.inr (convertFrom_head S.U a.channel.name)) [msg]
    let st0' : St := { st0 with eff := st0.eff ++ [.call [convertFrom S.U a.channel.name] [msg]] }
    let st1 : St := { st0' with loc := (c!"value", auto, valueVal y) :: st0'.loc }
    have s01 : Steps S.v st0 st0' [] false := Steps.one hq.1 hq.2
    have hdecl : execS C (.declEq auto c!"value" (Tree.call [convertFrom S.U a.channel.name] [nm c!"msg"])) st0 = .ok .next st1 := by
      rw [execS, bind_eq, bind_ok hconv]
      rfl
    have hc1 : Core S p c st1 := hc.congr rfl
    have hP1 : Pubs S L p st1 := hP
    have l1 : ∀ x, x ≠ c!"msg" → x ≠ c!"value" → getLocal st1 x = none := by
      intro x h1 h2
      apply getLocal_none
      simp only [st1, st0', st0, List.map_cons, List.map_nil, List.mem_cons, List.not_mem_nil, or_false, not_or]
      exact ⟨h2, h1⟩
    have hval : getLocal st1 c!"value" = some (auto, valueVal y) := rfl
    have hvalE : evalE C (nm c!"value") st1 = .ok (valueVal y) st1 := nm_local hval
    have hs := eval_state_ (S := S) (L := L) (n := n + 3) (fuel := fuel) (f := f) (l1 _ (by decide) (by decide)) hc1.state
    let other : Str → Stmt := fun id => .block (stmtsOf [
      logged S.U S.v c!"info" (.str c!"Unexpected value ") [nm c!"value", .str (c!" for " ++ a.channel.string ++ c!" in state " ++ id ++ c!".")],
      endS c!"OFF_SCRIPT"])
    let body : Str × List Transition → List Stmt := fun e => [chain S.U (other e.1) e.2, .brk]
    let rest : List Stmt := [logged S.U S.v c!"info" (.str c!"Output ") [nm c!"value", .str (c!" on " ++ a.channel.string ++ c!" in unexpected state "),
      Tree.call [c!"stateName"] [], .str c!"."], endS c!"OFF_SCRIPT"]
    have hbody : ∀ e ∈ a.states, ∀ s ∈ body e, ∀ v, C.isCase v s = false ∧ isDefault s = false := by
      intro e _ s hs v
      simp only [body, List.mem_cons, List.not_mem_nil, or_false] at hs
      rcases hs with rfl | rfl
      · exact chain_noCase v ⟨rfl, rfl⟩ _
      · exact ⟨rfl, rfl⟩
    have hrest : ∀ s ∈ rest, ∀ v, C.isCase v s = false := by
      intro s hs v
      simp only [rest, List.mem_cons, List.not_mem_nil, or_false] at hs
      rcases hs with rfl | rfl
      · exact (logged_noCase v).1
      · rfl
    have hitem : bodyOf (outItem S.U S.v a) =
        stmtsOf [.declEq auto c!"value" (Tree.call [convertFrom S.U a.channel.name] [nm c!"msg"]),
          .switch (nm c!"state_") (stmtsOf (labelled S.U (·.1) body (sortEntries a.states) ++ .dflt :: rest))] := rfl
    have hgoal : ∃ st2, execSs C (bodyOf (outItem S.U S.v a)) st0 = .ok .next st2 ∧
        Did S L p c (Harness.outputCallback S.m a.channel y c) st1 st2 := by
      rw [hitem]
      have hkey := states_keyed (S := S) ham
      cases hg : GoMap.get? a.states c.state with
      | some ts =>
        have hmem := (GoMap.get?_eq_some_iff hkey.1).1 hg
        have hts : ∀ t ∈ ts, t.value ≠ .none ∧ SameKind t.value y ∧ t.next ∈ S.m.states.map (·.id) := by
          intro t ht
          have h4 := (((C38_aggregates S.m).2 a ham).2 c.state).2 ts hg
          rw [h4] at ht
          obtain ⟨s, hs, _, ss, hss, hcc, ht⟩ := Templates.transitionsOn_mem ht
          exact ⟨hS.values s hs ss hss t ht, hsame s hs ss hss hcc t ht, hS.names.nexts s hs ss hss t ht⟩
        obtain ⟨st2, r2, s2, m2⟩ := exec_log (S := S) (fuel := fuel) (n := n + 3) (st := st1) (this := some p) hS (shallow_sm f)
          (s := c!"Unexpected value ") hS.info
          (evalList_cons hvalE (evalList_one (s := c!" for " ++ a.channel.string ++ c!" in state " ++ c.state ++ c!"."))) (by decide)
        obtain ⟨st3, r3, d3, l3⟩ := did_end (n := n + 1) (fuel := fuel) (f := f) hS (hc1.congr m2) .offScript
        have ho : execS C (other c.state) st1 = .ok .next st3 :=
          execS_block ((execSs_cons r2).trans (execSs_cons r3)) (by rw [l3, s2.loc])
        obtain ⟨st4, r4, d4, l4⟩ := exec_chain (n := n) (fuel := fuel) (f := f) hS hc1 hP1 hval hy ts hts ho (Did.after m2 s2 d3) (l3.trans s2.loc)
        obtain ⟨tail, ht⟩ := keyed_hit (n := n + 3) (fuel := fuel) (L := L) hS hkey (f := f) (this := some p)
          (body := body) (rest := .dflt :: rest) hg (fun e he s hs v => (hbody e he s hs v).1)
        have hx : execFrom C (if C.hasCase (stateVal S.U c.state) (stmtsOf (labelled S.U (·.1) body (sortEntries a.states) ++ .dflt :: rest))
            then C.isCase (stateVal S.U c.state) else isDefault) false
            (stmtsOf (labelled S.U (·.1) body (sortEntries a.states) ++ .dflt :: rest)) st1 = .ok .brk st4 := by
          rw [ht]
          exact (execSs_cons r4).trans (execSs_stop rfl (by simp))
        refine ⟨st4, (execSs_cons hdecl).trans (execSs_cons (execS_switch hs hx l4)), ?_⟩
        have e : Harness.outputCallback S.m a.channel y c = (match ts.find? (fun t => t.value = y) with
            | some t => Harness.enter S.m t.next c
            | none => Harness.finish .offScript c) := by
          unfold Harness.outputCallback
          simp only [hfo, hg]
          rfl
        rw [e]
        exact d4
      | none =>
        have e : Harness.outputCallback S.m a.channel y c = Harness.finish .offScript c := by
          unfold Harness.outputCallback
          simp only [hfo, hg]
        rw [e]
        obtain ⟨id, hn⟩ := eval_stateName (n := n + 1) (fuel := fuel) (f := f) hS hc1
        obtain ⟨st2, r2, s2, m2⟩ := exec_log (S := S) (fuel := fuel) (n := n + 3) (st := st1) (this := some p) hS (shallow_sm f)
          (s := c!"Output ") hS.info
          (evalList_cons hvalE (evalList_cons (eval_str (s := c!" on " ++ a.channel.string ++ c!" in unexpected state "))
            (evalList_cons hn (evalList_one (s := c!"."))))) (by decide)
        obtain ⟨st3, r3, d3, l3⟩ := did_end (n := n + 1) (fuel := fuel) (f := f) hS (hc1.congr m2) .offScript
        have hx : execFrom C (if C.hasCase (stateVal S.U c.state) (stmtsOf (labelled S.U (·.1) body (sortEntries a.states) ++ .dflt :: rest))
            then C.isCase (stateVal S.U c.state) else isDefault) false
            (stmtsOf (labelled S.U (·.1) body (sortEntries a.states) ++ .dflt :: rest)) st1 = .ok .next st3 := by
          rw [keyed_miss (n := n + 3) (fuel := fuel) (L := L) hS hkey (f := f) (this := some p)
            (body := body) (rest := rest) hc.known hg hbody hrest]
          exact (execSs_cons r2).trans (execSs_cons r3)
        exact ⟨st3, (execSs_cons hdecl).trans (execSs_cons (execS_switch hs hx (l3.trans s2.loc))), Did.after m2 s2 d3⟩
    obtain ⟨st2, hx, d⟩ := hgoal
    refine ⟨_, callFn_run (fn_of hS (mem_outItem hao)) hb hx rfl, ?_⟩
    have d' : Did S L p c (Harness.outputCallback S.m a.channel y c) st0 { st2 with loc := st0.loc } :=
      Did.after (st1 := st0') rfl s01 (Did.congr (st0 := st0') d rfl rfl rfl rfl)
    exact d'.congr (st0 := st) rfl rfl rfl rfl

/-! ### any callback -/

theorem run_callback (hS : Setup S L) {p : List Str} {c : Harness.Config} (hc : Core S p c st) (hP : Pubs S L p st) {cb : Harness.Callback}
    (hcb : HasCallback S.m cb) {args : List Val} (ha : ArgsOf L S.U S.v cb args) :
    ∃ st', callFn S.prog L fuel (n + 4) [SM, methodOf cb] (some p) args st = .ok .void st' ∧ Did S L p c (Harness.step S.m c cb) st st' := by
  cases cb with
  | timeout => exact run_timeout hS hc ha
  | start => exact run_delay hS hc hP ((C39_firstStateHasIn S.m).2 hcb) ha
  | accepted => exact run_accepted hS hc hP ((C39_hasIn S.m).2.2 hcb) ha
  | output ch y => exact run_output hS hc hP hcb ha

end

end Sem

end Cpp

end Spec

end Rtcg
