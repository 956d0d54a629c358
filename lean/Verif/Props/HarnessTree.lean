import Verif.Proofs.HarnessTree
import Verif.Props.Harness

/-
C60, C62, C63 and C68–C71: late callbacks, inputs sent, and the tests of trees.
-/

namespace Rtcg.Harness

open Rtcg Spec

/-! ### examples -/

/-- Two tests sharing their first input: `t` forbids b.2 after it, `u` forbids b.4 after b.3. -/
def exShared : Node :=
  (Node.root [(Node.inc ⟨⟨c!"a", .in_⟩, .int 1⟩
    [Node.testPoint ⟨⟨c!"b", .out⟩, .int 2⟩ [c!"t"],
     (Node.inc ⟨⟨c!"b", .out⟩, .int 3⟩ [Node.testPoint ⟨⟨c!"b", .out⟩, .int 4⟩ [c!"u"]]).mark [c!"u"]]).mark [c!"t", c!"u"]]).mark [c!"t", c!"u"]

/-- A test `t` that has failed after b.1, where test `u` could still go on. -/
def exOngoing : Node :=
  (Node.root [(Node.inc ⟨⟨c!"b", .out⟩, .int 1⟩
    [Node.fail.mark [c!"t"], (Node.inc ⟨⟨c!"b", .out⟩, .int 2⟩ [Node.testPoint ⟨⟨c!"b", .out⟩, .int 3⟩ [c!"u"]]).mark [c!"u"]]).mark [c!"t", c!"u"]]).mark [c!"t", c!"u"]

/-- The machine the zero builder makes. -/
def builtBy (root : Node) : Stm :=
  match Builder.build Builder.zero ⟨root⟩ with
  | some (.ok (_, m, _)) => m
  | _ => ⟨[], [], []⟩

theorem noIds_of (root : Node) (h : ∀ x ∈ preorder [] root, x.2.id = []) : NoIds root := by
  intro p n hn
  exact h (p, n) (mem_preorder.2 ⟨p, by simp, hn⟩)

theorem exShared_built : BuiltFrom exShared (builtBy exShared) :=
  ⟨noIds_of _ (by decide), Builder.zero, ⟨exShared⟩, _, _, by rfl, by rfl⟩

theorem exOngoing_built : BuiltFrom exOngoing (builtBy exOngoing) :=
  ⟨noIds_of _ (by decide), Builder.zero, ⟨exOngoing⟩, _, _, by rfl, by rfl⟩

/-- Two tests whose first outputs are the same, but not shared. -/
def exAlike : Node :=
  (Node.root [(Node.inc ⟨⟨c!"b", .out⟩, .int 1⟩ [Node.testPoint ⟨⟨c!"b", .out⟩, .int 2⟩ [c!"t"]]).mark [c!"t"],
    (Node.inc ⟨⟨c!"b", .out⟩, .int 1⟩ [Node.testPoint ⟨⟨c!"b", .out⟩, .int 3⟩ [c!"u"]]).mark [c!"u"]]).mark [c!"t", c!"u"]

theorem exAlike_built : BuiltFrom exAlike (builtBy exAlike) :=
  ⟨noIds_of _ (by decide), Builder.zero, ⟨exAlike⟩, _, _, by rfl, by rfl⟩

theorem builtFor_from {f : Forbidden} {name : Str} {m : Stm} (h : BuiltFor f name m) : BuiltFrom (f.expand name) m :=
  ⟨C29_expand_noIds f name, h⟩

/-! ### C60 -/

/-- The test that keeps no callbacks after its end stays as it is. -/
theorem C60_run (m : Stm) (cbs more : List Callback) (h : (run m cbs).status.isRunning = false) : run m (cbs ++ more) = run m cbs := by
  unfold run at h ⊢
  rw [List.foldl_append]
  exact foldl_ended h more

/-- The claim is false of the program itself: the entry functions set the status without looking, so a callback that comes after
the end can set a test running again. -/
theorem C60_false : ¬ ∀ (f : Forbidden) (name : Str) (m : Stm), BuiltFor f name m → ∀ (cbs : List Callback) (cb : Callback),
    (lateRun m cbs).status.isRunning = false → (lateRun m (cbs ++ [cb])).status = (lateRun m cbs).status := by
  intro h
  have := h exTrace c!"t" exMachine exMachine_built [.start, .timeout] .accepted rfl
  exact absurd this (by decide)

/-- Even FAIL can be lost like that, when several tests share a program. -/
theorem C60_fail_lost : ∃ root m, BuiltFrom root m ∧ ∃ cbs cb, (lateRun m cbs).status = .fail ∧ (lateRun m (cbs ++ [cb])).status = .waitOut := by
  refine ⟨_, _, exOngoing_built, [.output ⟨c!"b", .out⟩ (.int 1)], .output ⟨c!"b", .out⟩ (.int 2), ?_, ?_⟩ <;> rfl

theorem late_snoc (m : Stm) (cbs : List Callback) (cb : Callback) : lateRun m (cbs ++ [cb]) = step m (lateRun m cbs) cb := by
  unfold lateRun; rw [List.foldl_append]; rfl

/-- What is left of the claim, for every machine built from a tree: after the end only an event that the current state expects,
leading to a state where no test fails, changes the status; no timeout, start delay or unexpected event does. -/
theorem C60_late_partial (root : Node) (m : Stm) (h : BuiltFrom root m) (cbs : List Callback) (cb : Callback)
    (hend : (lateRun m cbs).status.isRunning = false) (hne : (lateRun m (cbs ++ [cb])).status ≠ (lateRun m cbs).status) :
    ∃ id', Expects m (lateRun m cbs).state cb id' ∧ (lateRun m (cbs ++ [cb])).state = id' := by
  have hT := builtFrom_machineOf h
  obtain ⟨p, n, hin⟩ := inside_late hT cbs
  rw [late_snoc] at hne ⊢
  rcases inside_step hT hin cb with he | ⟨_, hw, _⟩ | ⟨_, _, he⟩ | ⟨i, k, e, hi, hko, hke, hobs, he⟩
  · rw [he] at hne; exact absurd rfl hne
  · rw [hw] at hend; cases hend
  · rw [he, finish_ended hend] at hne; exact absurd rfl hne
  · obtain ⟨hk, _⟩ := child_ok hT hin.at_ hi
    obtain ⟨ts, hts, hch, ht⟩ := (mem_pureState n e.channel ⟨e.value, k.id⟩).2
      (mem_branches.2 ⟨k, List.mem_of_getElem? hi, hko, e, hke, rfl, rfl⟩)
    refine ⟨k.id, ⟨⟨pureState n, node_state hT hin.at_ hin.alive, by rw [pureState_id, hin.state], ts, hts, _, ht, ?_, rfl⟩,
      pureState k, node_state hT hk hko, pureState_id k, ?_⟩, by rw [he]; exact enter_state_eq hT hk hko _⟩
    · rw [hch]; exact hobs
    · intro test htest
      rw [pureState_verdict] at htest
      refine hne ?_
      rw [he, enter_node hT hk hko, (settle_status _ _).1 ((fails_iff k).2 ⟨test, htest⟩)]
      rw [finish_ended (by exact hend)]
      rfl

/-- When no test goes on after another has failed, FAIL stays. -/
theorem C60_fail_final_partial (root : Node) (m : Stm) (h : BuiltFrom root m)
    (hleaf : ∀ p n, nodeAt root p = some n → Fails n → ∀ k ∈ n.next, k.outcome = oFail) (cbs more : List Callback)
    (hf : (lateRun m cbs).status = .fail) : (lateRun m (cbs ++ more)).status = .fail := by
  have hT := builtFrom_machineOf h
  induction more using List.reverseRecOn with
  | nil => rw [List.append_nil]; exact hf
  | append_singleton more cb ih =>
    rw [← List.append_assoc, late_snoc]
    obtain ⟨p, n, hin⟩ := inside_late hT (cbs ++ more)
    have hend : (lateRun m (cbs ++ more)).status.isRunning = false := by rw [ih]; rfl
    rcases inside_step hT hin cb with he | ⟨_, hw, _⟩ | ⟨_, _, he⟩ | ⟨i, k, e, hi, hko, hke, hobs, he⟩
    · rw [he]; exact ih
    · rw [ih] at hw; cases hw
    · rw [he, finish_ended hend]; exact ih
    · exfalso
      have hfn := hin.failed ih
      obtain ⟨n', hn', rfl⟩ := at_labelled hin.at_
      rw [fails_writeIds] at hfn
      rw [child_writeIds] at hi
      cases hc : n'.next[i]? with
      | none => rw [hc] at hi; cases hi
      | some c =>
        rw [hc] at hi
        simp only [Option.map_some, Option.some.injEq] at hi
        subst hi
        rw [(writeIds_id _ _ c).2.2.1] at hko
        exact hko (hleaf p n' hn' hfn c (List.mem_of_getElem? hc))

/-- So for the test of a single trace FAIL is final, whatever comes late. -/
theorem C60_trace_fail_final_partial (f : Forbidden) (name : Str) (m : Stm) (h : BuiltFor f name m) (cbs more : List Callback)
    (hf : (lateRun m cbs).status = .fail) : (lateRun m (cbs ++ more)).status = .fail := by
  refine C60_fail_final_partial (f.expand name) m (builtFor_from h) ?_ cbs more hf
  intro p n hn hfn k hk
  rw [expand_eq] at hn
  have key : ∀ (l : List (Outcome × Option Event)) (q : Path) (a : Node), a.next = branch name l →
      nodeAt a q = some n → k.outcome = oFail := by
    intro l
    induction l with
    | nil =>
      intro q a ha hq
      cases q with
      | nil => simp [nodeAt] at hq; subst hq; rw [ha] at hk; cases hk
      | cons i q => simp [nodeAt, ha, branch] at hq
    | cons x l ih =>
      intro q a ha hq
      cases q with
      | nil =>
        simp [nodeAt] at hq
        subst hq
        rw [ha, branch] at hk
        simp at hk
        obtain ⟨test, ht⟩ := hfn
        unfold lastOutcome at ht
        rw [ha, branch] at ht
        rw [hk]
        by_cases hx : test ∈ [name]
        · simp at hx; subst hx; simpa using ht
        · simp at hx; simp [hx] at ht
      | cons i q =>
        cases i with
        | zero =>
          simp [nodeAt, ha, branch] at hq
          exact ih q _ rfl hq
        | succ i => simp [nodeAt, ha, branch] at hq
  exact key (spineOf f) p _ rfl hn

example : (lateRun exMachine [.start, .accepted, .output ⟨c!"b", .out⟩ (.int (-2)), .output ⟨c!"b", .out⟩ (.int 3)]).status = .fail := by rfl

/-! ### C62 -/

theorem inputsOf_append (a b : List Event) : inputsOf (a ++ b) = inputsOf a ++ inputsOf b := by
  unfold inputsOf; rw [List.filter_append, List.map_append]

theorem take_next (l : List Event) (k : Nat) : l.take (k + 1) = l.take k ++ l[k]?.toList := by
  rw [List.take_succ]

/-- Once the start delay is over (or if there is none), a test has sent exactly the inputs of its trace up to and including the
event it waits for, in order, each once. -/
theorem C62_sent_partial (f : Forbidden) (name : Str) (m : Stm) (h : BuiltFor f name m) (cbs : List Callback)
    (hs : StartsWithInput f → Started f cbs) :
    (run m cbs).sent = inputsOf ((eventsOf f).take (progress (script f) (cbs.filter (counts f)) + 1)) := by
  have hb : before f name cbs = entered f name 0 [] := if_neg (fun h => h.2 (hs h.1))
  rw [run_builtFor h, hb]
  unfold reached
  simp only [List.drop_zero, Nat.zero_add, entered, List.nil_append]
  rw [← inputsOf_append]
  congr 1
  have : eventsOf f ≠ [] := by simp [eventsOf]
  cases he : eventsOf f with
  | nil => exact absurd he this
  | cons a l => simp

/-- Before the start delay is over, the test of a trace that starts with an input has not sent that input, though it has sent the
later ones it has got to: it does not notice acknowledgements of inputs it has not sent. -/
theorem C62_unstarted (f : Forbidden) (name : Str) (m : Stm) (h : BuiltFor f name m) (cbs : List Callback)
    (hin : StartsWithInput f) (hs : ¬ Started f cbs) :
    (run m cbs).sent = inputsOf (((eventsOf f).drop 1).take (progress (script f) (cbs.filter (counts f)))) := by
  have hb : before f name cbs = ⟨stateName 0, .waitStart, [(name, oUnset)], []⟩ := if_pos ⟨hin, hs⟩
  rw [run_builtFor h, hb]
  unfold reached
  simp

/-- Nothing is sent while the test waits for its start. -/
theorem C62_waiting (f : Forbidden) (name : Str) (m : Stm) (h : BuiltFor f name m) (cbs : List Callback)
    (hw : (run m cbs).status = .waitStart) : (run m cbs).sent = [] := by
  by_cases hc : StartsWithInput f ∧ ¬ Started f cbs
  · have hst := hw
    rw [run_builtFor h] at hst
    rw [C62_unstarted f name m h cbs hc.1 hc.2]
    have : progress (script f) (cbs.filter (counts f)) = 0 := by
      unfold reached at hst
      simp only [List.drop_zero, Nat.zero_add] at hst
      split at hst
      · split at hst
        · assumption
        · exact absurd hst (entered_status _ _ _ _).1
      · split at hst
        · cases hst
        · rename_i cb hcb _
          have := seen_no_start f cbs cb (List.mem_of_getElem? hcb)
          cases cb with
          | start => exact absurd rfl this
          | _ => cases hst
    rw [this]
    rfl
  · have hb : before f name cbs = entered f name 0 [] := if_neg hc
    rw [run_builtFor h, hb] at hw
    unfold reached at hw
    simp only [List.drop_zero, Nat.zero_add] at hw
    split at hw
    · split at hw
      · exact absurd hw (entered_status _ _ _ _).1
      · exact absurd hw (entered_status _ _ _ _).1
    · split at hw
      · cases hw
      · rename_i cb hcb _
        have := seen_no_start f cbs cb (List.mem_of_getElem? hcb)
        cases cb with
        | start => exact absurd rfl this
        | _ => cases hw

/-- So the claim is false for some schedules: an acknowledgement before the start makes the test go on without its first input. -/
theorem C62_false : ¬ ∀ (f : Forbidden) (name : Str) (m : Stm), BuiltFor f name m → ∀ cbs : List Callback,
    (run m cbs).sent = [] ∨ (run m cbs).sent = inputsOf ((eventsOf f).take (progress (script f) (cbs.filter (counts f)) + 1)) := by
  intro h
  have hb : BuiltFor ⟨[], [⟨⟨c!"a", .in_⟩, .int 1⟩, ⟨⟨c!"a", .in_⟩, .int 2⟩], ⟨⟨c!"b", .out⟩, .int 3⟩⟩ c!"t"
      (builtBy (Forbidden.expand ⟨[], [⟨⟨c!"a", .in_⟩, .int 1⟩, ⟨⟨c!"a", .in_⟩, .int 2⟩], ⟨⟨c!"b", .out⟩, .int 3⟩⟩ c!"t")) :=
    ⟨Builder.zero, ⟨_⟩, _, _, by rfl, by rfl⟩
  rcases h _ _ _ hb [.accepted] with h | h
  · exact absurd h (by rw [C62_unstarted _ _ _ hb _ (by decide) (by decide)]; decide)
  · exact absurd h (by rw [C62_unstarted _ _ _ hb _ (by decide) (by decide)]; decide)

/-- The animate variant only lets the user accept inputs that were sent, so there the claim holds of everything a user can type:
in the state after `k` events the inputs among the first `k + 1` events were sent, or the test has not started. -/
theorem C62_animate (f : Forbidden) (name : Str) (m : Stm) (h : BuiltFor f name m) (words : List (Str × Value)) :
    ∃ k, k ≤ (eventsOf f).length ∧ (animate m words).state = stateName k ∧
      ((animate m words).sent = inputsOf ((eventsOf f).take (k + 1)) ∨
        k = 0 ∧ StartsWithInput f ∧ (animate m words).sent = []) ∧
      ((animate m words).status = .waitStart → (animate m words).sent = []) := by
  obtain ⟨hs, ht⟩ := builtFor_linear h
  let Inv : Config → Prop := fun c => c.verdict.keys = [name] ∧ ∃ k, k ≤ (eventsOf f).length ∧ c.state = stateName k ∧
    (c.status.isRunning = true → k < (eventsOf f).length) ∧
    ((c.status ≠ .waitStart ∧ c.sent = inputsOf ((eventsOf f).take (k + 1))) ∨
      (c.status ≠ .waitIn ∧ k = 0 ∧ StartsWithInput f ∧ c.sent = []))
  have hent : ∀ k sent, k ≤ (eventsOf f).length → sent = inputsOf ((eventsOf f).take k) → Inv (entered f name k sent) := by
    intro k sent hk hsent
    refine ⟨rfl, k, hk, rfl, (entered_status f name k sent).2.1, Or.inl ⟨(entered_status f name k sent).1, ?_⟩⟩
    rw [take_next, inputsOf_append, ← hsent]
    rfl
  have hinit : Inv (construct m) := by
    rw [linear_construct hs ht]
    split
    · rename_i hin
      exact ⟨rfl, 0, Nat.zero_le _, rfl, fun _ => eventsOf_pos f, Or.inr ⟨by simp, rfl, hin, rfl⟩⟩
    · exact hent 0 [] (Nat.zero_le _) rfl
  have hcb : ∀ c cb, Inv c → c.status.isRunning = true → (cb = .accepted → c.status = .waitIn) → cb ≠ .start → Inv (step m c cb) := by
    rintro c cb ⟨hk, k, hle, hst, hlt, hsent⟩ hr hacc hns
    have hlt := hlt hr
    obtain ⟨e, he⟩ : ∃ e, (eventsOf f)[k]? = some e := ⟨_, List.getElem?_eq_getElem hlt⟩
    rw [linear_step hs he c hst hk hr cb hns]
    split
    · split
      · rename_i ho
        rcases hsent with ⟨_, hsent⟩ | ⟨hnw, hk0, ⟨e', he', hk'⟩, _⟩
        · exact hent (k + 1) c.sent (by omega) hsent
        · exfalso
          subst hk0
          rw [List.head?_eq_getElem?, he] at he'
          simp only [Option.some.injEq] at he'
          subst he'
          unfold observed at ho
          rw [if_pos hk'] at ho
          exact hnw (hacc ho.symm)
      · have hend : (derail cb).isRunning = true → k < (eventsOf f).length := fun hr' => by rw [derail_ended hns] at hr'; cases hr'
        refine ⟨hk, k, hle, hst, hend, ?_⟩
        have hd : derail cb ≠ .waitStart ∧ derail cb ≠ .waitIn := by
          cases cb with
          | start => exact absurd rfl hns
          | _ => simp [derail]
        rcases hsent with ⟨_, hsent⟩ | ⟨_, hsent⟩
        · exact Or.inl ⟨hd.1, hsent⟩
        · exact Or.inr ⟨hd.2, hsent⟩
    · exact ⟨hk, k, hle, hst, fun _ => hlt, hsent⟩
  have hstart : ∀ c, Inv c → c.status = .waitStart → Inv (step m c .start) := by
    rintro c ⟨hk, k, hle, hst, hlt, hsent⟩ hw
    have hr : c.status.isRunning = true := by rw [hw]; rfl
    rcases hsent with ⟨hnw, _⟩ | ⟨_, hk0, hin, hsent⟩
    · exact absurd hw hnw
    · have : step m c .start = enter m (initial m) c := by
        unfold step initialDelayCallback
        simp only [(linear_first hs).2 hin, if_true, hw, ne_eq, not_true_eq_false, if_false]
      rw [this, linear_initial hs, linear_enter hs (Nat.zero_le _) c hk hr]
      exact hent 0 c.sent (Nat.zero_le _) (by rw [hsent]; rfl)
  have hstep : ∀ c (w : Str × Value), Inv c → c.status.isRunning = true → Inv (animateStep m c w.1 w.2) := by
    intro c w hc hr
    unfold animateStep
    split
    · exact hcb c .timeout hc hr (by simp) (by simp)
    · split
      · rename_i hx; exact hstart c hc hx.2.2
      · split
        · rename_i hx; exact hcb c .accepted hc hr (fun _ => hx.2.2) (by simp)
        · split
          · exact hcb c _ hc hr (by simp) (by simp)
          · exact hc
  have hall : ∀ (words : List (Str × Value)) (c : Config), Inv c →
      Inv (words.foldl (fun c w => if c.status.isRunning then animateStep m c w.1 w.2 else c) c) := by
    intro words
    induction words with
    | nil => intro c hc; exact hc
    | cons w words ih =>
      intro c hc
      rw [List.foldl_cons]
      refine ih _ ?_
      split
      · rename_i hr; exact hstep c w hc hr
      · exact hc
  obtain ⟨_, k, hle, hst, _, hsent⟩ := hall words _ hinit
  refine ⟨k, hle, hst, ?_, ?_⟩
  · rcases hsent with ⟨_, hsent⟩ | ⟨_, h0, hin, hsent⟩
    · exact Or.inl hsent
    · exact Or.inr ⟨h0, hin, hsent⟩
  · intro hw
    rcases hsent with ⟨hnw, _⟩ | ⟨_, _, _, hsent⟩
    · exact absurd hw hnw
    · exact hsent

example : (run exMachine [.start, .accepted]).sent = [(⟨c!"a", .in_⟩, .int 1)] := by
  rw [C62_sent_partial exTrace c!"t" exMachine exMachine_built _ (by decide)]; decide

example : (animate exMachine [(c!"accept", .none), (c!"ready", .none), (c!"accept", .none), (c!"b", .int (-2))]).state = stateName 2 := by rfl

/-! ### C63 -/

/-- Whatever callbacks come, even after the end: the program is in a state of its machine, it has a verdict for exactly the tests of
its machine, and if it reports an internal error then an acknowledgement came in a state without inputs. -/
theorem C63_inside (root : Node) (m : Stm) (h : BuiltFrom root m) (cbs : List Callback) :
    (lateRun m cbs).state ∈ m.states.map (·.id) ∧
    (lateRun m cbs).verdict.keys = GoSet.values m.tests ∧
    ((lateRun m cbs).status = .bug → ∃ pre rest, cbs = pre ++ .accepted :: rest ∧
      ∃ s ∈ m.states, s.id = (lateRun m pre).state ∧ ∀ ts ∈ s.transitionSets, ts.channel.kind ≠ kIn) := by
  have hT := builtFrom_machineOf h
  obtain ⟨p, n, hin⟩ := inside_late hT cbs
  refine ⟨?_, hin.keys, ?_⟩
  · rw [hin.state]
    exact List.mem_map.2 ⟨pureState n, node_state hT hin.at_ hin.alive, pureState_id n⟩
  · clear hin
    induction cbs using List.reverseRecOn with
    | nil =>
      intro hb
      exfalso
      have ht := (track_construct hT).cases
      have hb : (construct m).status = .bug := hb
      rw [hb] at ht
      rcases ht with ⟨h, _⟩ | ⟨h, _⟩ | ⟨cb, rest, _, _, hs, _⟩
      · cases h
      · cases h
      · simp [seenTo, eventsTo] at hs
    | append_singleton cbs cb ih =>
      intro hb
      rw [late_snoc] at hb
      have old : (lateRun m cbs).status = .bug → ∃ pre rest, cbs ++ [cb] = pre ++ .accepted :: rest ∧
          ∃ s ∈ m.states, s.id = (lateRun m pre).state ∧ ∀ ts ∈ s.transitionSets, ts.channel.kind ≠ kIn := by
        intro hb
        obtain ⟨pre, rest, he, hs⟩ := ih hb
        exact ⟨pre, rest ++ [cb], by rw [he]; simp, hs⟩
      obtain ⟨p, n, hin⟩ := inside_late hT cbs
      have entering : ∀ (q : Path) (k : Node), nodeAt (labelled root) q = some k → k.outcome ≠ oFail →
          (enter m k.id (lateRun m cbs)).status = .bug → (lateRun m cbs).status = .bug := by
        intro q k hk hko hb
        rw [enter_node hT hk hko] at hb
        by_cases hf : (pureState k).verdict.isFail = true
        · rw [(settle_status _ _).1 hf] at hb
          by_cases hr : (lateRun m cbs).status.isRunning = true
          · rw [finish_running (by exact hr) rfl] at hb; cases hb
          · rw [finish_ended (by exact Bool.not_eq_true _ ▸ hr)] at hb; exact hb
        · rw [(settle_status _ _).2 (by simpa using hf)] at hb
          split at hb <;> cases hb
      rcases inside_step hT hin cb with he | ⟨_, _, he⟩ | ⟨hcb, hno, he⟩ | ⟨i, k, e, hi, hko, hke, hobs, he⟩
      · rw [he] at hb; exact old hb
      · rw [he] at hb
        exact old (entering [] (labelled root) rfl (root_alive hT) hb)
      · rw [he] at hb
        by_cases hr : (lateRun m cbs).status.isRunning = true
        · rw [finish_running hr (derail_ended hcb)] at hb
          cases cb with
          | accepted =>
            refine ⟨cbs, [], rfl, pureState n, node_state hT hin.at_ hin.alive, by rw [pureState_id, hin.state], ?_⟩
            intro ts hts hk
            obtain ⟨t, ht⟩ := set_nonempty n hts
            obtain ⟨i, k, e, hi, hko, hke, hch, _⟩ := mem_branches_child hT hin.at_ ((mem_pureState n ts.channel t).1 ⟨ts, hts, rfl, ht⟩)
            refine hno ⟨k, List.mem_of_getElem? hi, hko, e, hke, ?_⟩
            unfold observed
            rw [if_pos (by rw [← hch]; exact hk)]
          | start => exact absurd rfl hcb
          | timeout => cases hb
          | output ch v => cases hb
        · rw [finish_ended (by simpa using hr)] at hb; exact old hb
      · obtain ⟨hk, _⟩ := child_ok hT hin.at_ hi
        rw [he] at hb
        exact old (entering _ k hk hko hb)

/-- The same for runs that end. -/
theorem C63_run (root : Node) (m : Stm) (h : BuiltFrom root m) (cbs : List Callback) :
    (run m cbs).state ∈ m.states.map (·.id) ∧ (run m cbs).verdict.keys = GoSet.values m.tests := by
  obtain ⟨pre, _, he⟩ := run_late m cbs
  rw [he]
  exact ⟨(C63_inside root m h pre).1, (C63_inside root m h pre).2.1⟩

example : (lateRun (builtBy exShared) [.start, .accepted, .accepted]).status = .bug := by rfl

/-! ### C68 and C69 -/

/-- No false alarms, for any validated tree: if the program ends with FAIL, then what it saw starts with a path of the tree to a
node where some test fails. -/
theorem C68_no_false_alarms (root : Node) (m : Stm) (h : BuiltFrom root m) (cbs : List Callback) (hf : (run m cbs).status = .fail) :
    ∃ p n, nodeAt root p = some n ∧ n.outcome ≠ oFail ∧ Fails n ∧ seenTo root p <+: cbs.filter (sees (treeEvents root)) := by
  have hT := builtFrom_machineOf h
  obtain ⟨p, n, ht⟩ := track_run hT cbs
  rcases ht.cases with ⟨hr, _⟩ | ⟨_, hfn, hs⟩ | ⟨cb, rest, hcb, hst, _⟩
  · rw [hf] at hr; cases hr
  · obtain ⟨n', hn', hnn⟩ := at_labelled ht.at_
    have ho := ht.alive
    rw [sees_labelled, show seenTo (labelled root) p = seenTo root p from seenTo_writeIds root [] p] at hs
    rw [hnn, (writeIds_id _ _ n').2.2.1] at ho
    rw [hnn, fails_writeIds] at hfn
    exact ⟨p, n', hn', ho, hfn, hs⟩
  · rw [hf] at hst
    cases cb with
    | start => exact absurd rfl hcb
    | _ => cases hst

/-- No misses, for trees that do not offer two continuations that look alike: having seen a path (not the empty one) to a node where
some test fails, the program has ended with FAIL, on any schedule. -/
theorem C69_no_misses (root : Node) (m : Stm) (h : BuiltFrom root m) (hd : Deterministic root) (cbs : List Callback) (p : Path) (n : Node)
    (hp : p ≠ []) (hn : nodeAt root p = some n) (ho : n.outcome ≠ oFail) (hf : Fails n)
    (hs : seenTo root p <+: cbs.filter (sees (treeEvents root))) : (run m cbs).status = .fail := by
  have hT := builtFrom_machineOf h
  refine fail_complete hT (deterministic_labelled hd) cbs hp (labelled_at hn) ?_ ((fails_writeIds n p).2 hf) ?_
  · rw [(writeIds_id _ _ n).2.2.1]; exact ho
  · rw [sees_labelled, show seenTo (labelled root) p = seenTo root p from seenTo_writeIds root [] p]; exact hs

/-- Together: such a program ends with FAIL exactly when it has seen a failing path (if not everything fails from the beginning). -/
theorem C69_fail_iff (root : Node) (m : Stm) (h : BuiltFrom root m) (hd : Deterministic root) (hroot : ¬ Fails root) (cbs : List Callback) :
    (run m cbs).status = .fail ↔
      ∃ p n, nodeAt root p = some n ∧ n.outcome ≠ oFail ∧ Fails n ∧ seenTo root p <+: cbs.filter (sees (treeEvents root)) := by
  constructor
  · exact C68_no_false_alarms root m h cbs
  · rintro ⟨p, n, hn, ho, hf, hs⟩
    refine C69_no_misses root m h hd cbs p n ?_ hn ho hf hs
    rintro rfl
    simp [nodeAt] at hn
    subst hn
    exact hroot hf

/-- Without that condition it is false: of two continuations alike the program follows one. -/
theorem C69_needs_deterministic : ∃ root m, BuiltFrom root m ∧ ∃ cbs p n, p ≠ [] ∧ nodeAt root p = some n ∧ n.outcome ≠ oFail ∧ Fails n ∧
    seenTo root p <+: cbs.filter (sees (treeEvents root)) ∧ (run m cbs).status ≠ .fail := by
  refine ⟨exAlike, builtBy exAlike, exAlike_built,
    [.output ⟨c!"b", .out⟩ (.int 1), .output ⟨c!"b", .out⟩ (.int 3)], [1, 0], _, by simp, by rfl, by decide, by decide, by decide, by decide⟩

theorem exShared_deterministic : Deterministic exShared := by
  intro p n hn
  have hall : ∀ x ∈ preorder [] exShared, ∀ i < x.2.next.length, ∀ j < x.2.next.length, i ≠ j →
      ((x.2.next[i]?).bind (fun a => a.event.map observed)) ≠ ((x.2.next[j]?).bind (fun a => a.event.map observed)) := by decide
  have hx := hall (p, n) (mem_preorder.2 ⟨p, by simp, hn⟩)
  intro i j a b e e' ha hb _ _ hae hbe ho
  by_cases hij : i = j
  · exact hij
  · have := hx i (List.getElem?_eq_some_iff.1 ha).1 j (List.getElem?_eq_some_iff.1 hb).1 hij
    simp [ha, hb, hae, hbe, ho] at this

example : ¬ Fails exShared ∧ (run (builtBy exShared) [.start, .accepted, .output ⟨c!"b", .out⟩ (.int 3), .output ⟨c!"b", .out⟩ (.int 4)]).status = .fail := by
  refine ⟨by decide, ?_⟩
  rw [C69_fail_iff exShared _ exShared_built exShared_deterministic (by decide)]
  exact ⟨[0, 1, 0], _, by rfl, by decide, by decide, by decide⟩

/-! ### C70 -/

/-- The verdicts a program reports are those its tree prescribes along the way that what it saw leads down the tree: for each test,
the outcome at the deepest node on the way that says anything about the test.  (If the tree starts with an input, the start delay
must be over first.) -/
theorem C70_verdicts (root : Node) (m : Stm) (h : BuiltFrom root m) (cbs : List Callback)
    (hs : RootInput root → StartedIn (treeEvents root) cbs) :
    ∃ p, Followed root (cbs.filter (sees (treeEvents root))) p ∧
      ∀ x ∈ GoSet.values m.tests, GoMap.get? (run m cbs).verdict x = some ((verdictTo root x p).getD oUnset) := by
  have hT := builtFrom_machineOf h
  obtain ⟨p, n, ht, hr⟩ := record_run hT cbs (fun hf => (started_labelled root cbs).2 (hs ((rootInput_writeIds root []).1 ((first_iff hT).1 hf))))
  have hfo := followed_of hT ht hr
  rw [sees_labelled, followed_labelled] at hfo
  refine ⟨p, hfo, ?_⟩
  intro x hx
  rw [hr.verdict x hx, show verdictTo (labelled root) x p = verdictTo root x p from verdictTo_writeIds root x [] p]

/-- In a tree without look-alike continuations, there is only one such way. -/
theorem C70_unique (root : Node) (m : Stm) (h : BuiltFrom root m) (hd : Deterministic root) (seen : List Callback) (p q : Path)
    (hp : Followed root seen p) (hq : Followed root seen q) : p = q :=
  followed_unique (builtFrom_machineOf h) (deterministic_labelled hd) (followed_labelled.2 hp) (followed_labelled.2 hq)

example : (run (builtBy exShared) [.start, .accepted, .output ⟨c!"b", .out⟩ (.int 3)]).verdict = [(c!"t", oPass), (c!"u", oPass)] := by rfl

/-! ### C71 -/

/-- The inputs a program has sent are those its tree offers along that way, in order, each once. -/
theorem C71_inputs (root : Node) (m : Stm) (h : BuiltFrom root m) (hd : Deterministic root) (cbs : List Callback)
    (hs : RootInput root → StartedIn (treeEvents root) cbs) (p : Path)
    (hp : Followed root (cbs.filter (sees (treeEvents root))) p) : (run m cbs).sent = offersTo root p := by
  have hT := builtFrom_machineOf h
  obtain ⟨q, n, ht, hr⟩ := record_run hT cbs (fun hf => (started_labelled root cbs).2 (hs ((rootInput_writeIds root []).1 ((first_iff hT).1 hf))))
  have hfo := followed_of hT ht hr
  rw [sees_labelled, followed_labelled] at hfo
  have := C70_unique root m h hd _ p q hp hfo
  subst this
  rw [hr.sent (fun q n hn => oneInput_of_deterministic (deterministic_labelled hd) hn)]
  exact offersTo_writeIds root [] p

example : Followed exShared ([Callback.start, .accepted, .output ⟨c!"b", .out⟩ (.int 3)].filter (sees (treeEvents exShared))) [0, 1] := by
  refine ⟨_, rfl, by decide, by decide, ?_, Or.inl (by decide)⟩
  intro q n hq hne hn
  rcases q with _ | ⟨i, _ | ⟨j, q⟩⟩
  · simp [nodeAt] at hn; subst hn; decide
  · simp at hq
    subst hq
    simp [nodeAt, exShared, Node.root, Node.mark, Node.new] at hn
    subst hn
    decide
  · simp at hq
    obtain ⟨rfl, rfl, rfl⟩ := hq
    exact absurd rfl hne

/-! ### C111 -/

/-- How the test of a tree ends.  (If the tree starts with an input, the start delay must be over first.)  Whatever comes, there is a way down
the tree that the callbacks that count lead, as far as they do; and the status is what the node at its end and the next callback make it: FAIL
exactly where some test fails, waiting exactly while nothing has come that the node does not go on with, and otherwise an ending that says
what came.  The verdicts are those prescribed along the same way, and (if no node offers two inputs) the inputs sent are those offered
along it. -/
theorem C111_endings (root : Node) (m : Stm) (h : BuiltFrom root m) (cbs : List Callback)
    (hs : RootInput root → StartedIn (treeEvents root) cbs) :
    ∃ p n after, Followed root (cbs.filter (sees (treeEvents root))) p ∧ nodeAt root p = some n ∧
      cbs.filter (sees (treeEvents root)) = seenTo root p ++ after ∧ EndsAt n after (run m cbs).status ∧
      (∀ x ∈ GoSet.values m.tests, GoMap.get? (run m cbs).verdict x = some ((verdictTo root x p).getD oUnset)) ∧
      (Deterministic root → (run m cbs).sent = offersTo root p) := by
  have hT := builtFrom_machineOf h
  obtain ⟨p, n, ht, hr⟩ := record_run hT cbs (fun hf => (started_labelled root cbs).2 (hs ((rootInput_writeIds root []).1 ((first_iff hT).1 hf))))
  have hfo := followed_of hT ht hr
  rw [sees_labelled, followed_labelled] at hfo
  obtain ⟨n', hn', hnn⟩ := at_labelled ht.at_
  have hc := ht.cases
  have hw := hr.waits n ht.at_
  rw [sees_labelled, show seenTo (labelled root) p = seenTo root p from seenTo_writeIds root [] p] at hc
  rw [hnn, fails_writeIds] at hc
  rw [hnn, rootInput_writeIds] at hw
  have hsent : Deterministic root → (run m cbs).sent = offersTo root p := fun hd => by
    rw [hr.sent (fun q n hn => oneInput_of_deterministic (deterministic_labelled hd) hn)]
    exact offersTo_writeIds root [] p
  have hverd : ∀ x ∈ GoSet.values m.tests, GoMap.get? (run m cbs).verdict x = some ((verdictTo root x p).getD oUnset) := fun x hx => by
    rw [hr.verdict x hx, show verdictTo (labelled root) x p = verdictTo root x p from verdictTo_writeIds root x [] p]
  rcases hc with ⟨h1, h2, _, h3⟩ | ⟨h1, h2, after, h3⟩ | ⟨cb, rest, h1, h2, h3, h4, h5⟩
  · refine ⟨p, n', [], hfo, hn', by rw [h2, List.append_nil], ?_, hverd, hsent⟩
    have hnf := h3 hr.started
    have hst := hr.started
    cases hst' : (run m cbs).status with
    | waitStart => exact absurd hst' hst
    | waitIn => exact .waitIn hnf (hw.1 hst')
    | waitOut => exact .waitOut hnf (hw.2 hst')
    | _ => rw [hst'] at h1; cases h1
  · refine ⟨p, n', after, hfo, hn', h3.symm, ?_, hverd, hsent⟩
    rw [h1]
    exact .fail _ h2
  · refine ⟨p, n', cb :: rest, hfo, hn', h3, ?_, hverd, hsent⟩
    have hnf : ¬ Fails n' := by
      by_cases hp : p = []
      · subst hp
        simp only [nodeAt, Option.some.injEq] at hn'
        subst hn'
        intro hf
        have := hr.failed ((fails_writeIds root []).2 hf)
        rw [this] at h2
        cases cb <;> first | exact h1 rfl | cases h2
      · exact h5 hp
    rw [h2]
    cases cb with
    | start => exact absurd rfl h1
    | timeout => exact .timeout _ hnf
    | accepted => exact .bug _ hnf
    | output c x => exact .offScript _ _ _ hnf

/-- In a tree without look-alike continuations there is only one such way, so the status is determined by what was seen. -/
theorem C111_determined (root : Node) (m : Stm) (h : BuiltFrom root m) (hd : Deterministic root) (cbs : List Callback)
    (hs : RootInput root → StartedIn (treeEvents root) cbs) (p : Path) (n : Node) (after : List Callback)
    (hp : Followed root (cbs.filter (sees (treeEvents root))) p) (hn : nodeAt root p = some n)
    (ha : cbs.filter (sees (treeEvents root)) = seenTo root p ++ after) (s : Status) : (run m cbs).status = s ↔ EndsAt n after s := by
  obtain ⟨q, n', after', h1, h2, h3, h4, _⟩ := C111_endings root m h cbs hs
  have := C70_unique root m h hd _ p q hp h1
  subst this
  rw [hn] at h2
  cases h2
  rw [ha, List.append_cancel_left_eq] at h3
  subst h3
  constructor
  · rintro rfl; exact h4
  · intro h5
    generalize (run m cbs).status = s' at h4
    cases h4 <;> cases h5 <;> first | rfl | contradiction

/-- The hypotheses are met: in this tree, after the input is accepted, an output other than those that go on is off the script. -/
example : (run (builtBy exShared) [.start, .accepted, .output ⟨c!"b", .out⟩ (.int 9)]).status = .offScript := by
  refine (C111_determined exShared _ exShared_built exShared_deterministic [.start, .accepted, .output ⟨c!"b", .out⟩ (.int 9)] (fun _ => by decide) [0] _
    [.output ⟨c!"b", .out⟩ (.int 9)]
    ⟨_, rfl, by decide, by decide, ?_, Or.inr (Or.inr ⟨.output ⟨c!"b", .out⟩ (.int 9), [], by decide, ?_⟩)⟩ rfl (by decide) _).2 (.offScript _ _ _ (by decide))
  · intro q n hq hne hn
    cases q with
    | nil =>
      simp only [nodeAt, Option.some.injEq] at hn
      subst hn
      decide
    | cons a q =>
      simp only [List.cons_prefix_cons, List.prefix_nil] at hq
      exact absurd (by rw [hq.1, hq.2]) hne
  · rintro ⟨k, hk, _, e, he, ho⟩
    have : ∀ k ∈ (exShared.next.head?.map (·.next)).getD [], k.event.map observed ≠ some (.output ⟨c!"b", .out⟩ (.int 9)) := by decide
    exact this k hk (by rw [he]; simp [ho])

end Rtcg.Harness
