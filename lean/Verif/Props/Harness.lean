import Verif.Proofs.Harness

/-
C58–C63: what the generated test programs do.
-/

namespace Rtcg.Harness

open Rtcg Spec

/-! ### the machine of a trace -/

theorem builtFor_linear {f : Forbidden} {name : Str} {m : Stm} (h : BuiltFor f name m) :
    m.states = linearStates f name ∧ GoSet.values m.tests = [name] := by
  obtain ⟨b, t, b', t', hv, hb⟩ := h
  refine ⟨linear_states hv hb, ?_⟩
  obtain ⟨h1, h2, _⟩ := C33_tests b b' _ t t' m hv hb
  have hmem : ∀ x, x ∈ GoSet.values m.tests ↔ x = name := by
    intro x
    rw [h2 x]
    constructor
    · rintro ⟨p, n, hp, hn, hx⟩
      rw [expand_eq] at hn
      rcases nodeAt_branch rfl hn with h | ⟨k, o, e, hk, rfl⟩
      · exact absurd h hp
      · simpa using hx
    · rintro rfl
      rw [expand_eq]
      obtain ⟨n, hn, ht⟩ : ∃ n, nodeAt (⟨[], [x], oUnset, none, branch x (spineOf f)⟩ : Node) [0] = some n ∧ x ∈ n.tests := by
        unfold spineOf
        cases f.pre with
        | nil => exact ⟨_, rfl, by simp⟩
        | cons e pre => exact ⟨_, rfl, by simp⟩
      exact ⟨[0], n, by simp, hn, ht⟩
  match hl : GoSet.values m.tests with
  | [] => rw [hl] at hmem; exact absurd ((hmem name).2 rfl) (by simp)
  | [x] => rw [hl] at hmem; rw [(hmem x).1 (by simp)]
  | x :: y :: l =>
    rw [hl] at hmem h1
    have e1 := (hmem x).1 (by simp)
    have e2 := (hmem y).1 (by simp)
    rw [e1, e2] at h1
    simp at h1

theorem run_builtFor {f : Forbidden} {name : Str} {m : Stm} (h : BuiltFor f name m) (cbs : List Callback) :
    run m cbs = reached f name (before f name cbs) 0 (cbs.filter (counts f)) :=
  run_linear (builtFor_linear h).1 (builtFor_linear h).2 cbs

/-- A test waiting for an input to be accepted, for an output, and forbidding another one. -/
def exTrace : Forbidden := ⟨[], [⟨⟨c!"a", .in_⟩, .int 1⟩, ⟨⟨c!"b", .out⟩, .int (-2)⟩], ⟨⟨c!"b", .out⟩, .int 3⟩⟩

/-- Its machine. -/
def exMachine : Stm where
  states := linearStates exTrace c!"t"
  types := [(c!"a", some (Value.int 1).type), (c!"b", some (Value.int (-2)).type)]
  tests := [(c!"t", true)]

theorem exMachine_built : BuiltFor exTrace c!"t" exMachine := ⟨Builder.zero, ⟨exTrace.expand c!"t"⟩, _, _, by rfl, by rfl⟩

/-! ### following the script -/

theorem progress_le (s seen : List Callback) : progress s seen ≤ s.length ∧ progress s seen ≤ seen.length := by
  induction s generalizing seen with
  | nil => simp [progress]
  | cons a s ih =>
    cases seen with
    | nil => simp [progress]
    | cons b seen =>
      unfold progress
      split
      · have := ih seen; simp; omega
      · simp

/-- The common prefix, and that it is the longest one. -/
theorem progress_spec (s seen : List Callback) :
    s.take (progress s seen) = seen.take (progress s seen) ∧
      ∀ a b, s[progress s seen]? = some a → seen[progress s seen]? = some b → a ≠ b := by
  induction s generalizing seen with
  | nil => simp [progress]
  | cons x s ih =>
    cases seen with
    | nil => simp [progress]
    | cons y seen =>
      by_cases h : x = y
      · have := ih seen
        unfold progress
        rw [if_pos h, List.take_succ_cons, List.take_succ_cons, h, this.1]
        simp only [List.getElem?_cons_succ, true_and]
        exact this.2
      · simp only [progress, if_neg h, List.take_zero, List.getElem?_cons_zero, Option.some.injEq, true_and]
        rintro a b rfl rfl
        exact h

theorem progress_full (s seen : List Callback) : progress s seen = s.length ↔ s <+: seen := by
  induction s generalizing seen with
  | nil => simp [progress]
  | cons x s ih =>
    cases seen with
    | nil => simp [progress]
    | cons y seen =>
      unfold progress
      by_cases h : x = y
      · rw [if_pos h, List.length_cons, Nat.add_right_cancel_iff, ih, h, List.cons_prefix_cons]
        simp
      · rw [if_neg h, List.cons_prefix_cons]
        simp [h]

theorem progress_seen (s seen : List Callback) : progress s seen = seen.length ↔ seen <+: s := by
  induction s generalizing seen with
  | nil => cases seen <;> simp [progress]
  | cons x s ih =>
    cases seen with
    | nil => simp [progress]
    | cons y seen =>
      unfold progress
      by_cases h : x = y
      · rw [if_pos h, List.length_cons, Nat.add_right_cancel_iff, ih, h, List.cons_prefix_cons]
        simp
      · rw [if_neg h, List.cons_prefix_cons]
        simp only [List.length_cons]
        constructor
        · omega
        · rintro ⟨rfl, _⟩; exact absurd rfl h

theorem progress_mono (s seen more : List Callback) : progress s seen ≤ progress s (seen ++ more) := by
  induction s generalizing seen with
  | nil => simp [progress]
  | cons x s ih =>
    cases seen with
    | nil => rw [progress_nil]; omega
    | cons y seen =>
      rw [List.cons_append]
      unfold progress
      split
      · have := ih seen; omega
      · omega

theorem progress_stuck (s seen more : List Callback) (h : progress s seen < seen.length) : progress s (seen ++ more) = progress s seen := by
  induction s generalizing seen with
  | nil => simp [progress]
  | cons x s ih =>
    cases seen with
    | nil => simp at h
    | cons y seen =>
      rw [List.cons_append]
      unfold progress at h ⊢
      split
      · rename_i e
        rw [if_pos e] at h
        rw [ih seen (by simpa using h)]
      · rfl

theorem deviates_iff (s seen : List Callback) (cb : Callback) :
    Deviates s seen cb ↔ progress s seen < s.length ∧ seen[progress s seen]? = some cb := by
  constructor
  · rintro ⟨pre, rest, rfl, hp, hlt, hn⟩
    have h1 : progress s pre = pre.length := (progress_seen s pre).2 hp
    have h2 : progress s (pre ++ [cb]) = pre.length := by
      have := progress_mono s pre [cb]
      have h3 := (progress_le s (pre ++ [cb])).2
      have h4 : progress s (pre ++ [cb]) ≠ (pre ++ [cb]).length := fun h => hn ((progress_seen _ _).1 h)
      simp at h3 h4
      omega
    have h3 : progress s (pre ++ cb :: rest) = pre.length := by
      have := progress_stuck s (pre ++ [cb]) rest (by rw [h2]; simp)
      rw [h2] at this
      simpa using this
    rw [h3]
    exact ⟨hlt, by simp⟩
  · rintro ⟨hlt, hcb⟩
    obtain ⟨hl, he⟩ := List.getElem?_eq_some_iff.1 hcb
    obtain ⟨h1, h2⟩ := progress_spec s seen
    refine ⟨seen.take (progress s seen), seen.drop (progress s seen + 1), ?_, ?_, ?_, ?_⟩
    · conv_lhs => rw [← List.take_append_drop (progress s seen) seen]
      rw [List.drop_eq_getElem_cons hl, he]
    · rw [← h1]; exact List.take_prefix _ _
    · simp; omega
    · intro hpre
      have : s[progress s seen]? = some cb := by
        obtain ⟨r, hr⟩ := hpre
        generalize hq : progress s seen = q at *
        rw [← hr]
        simp [List.getElem?_append, Nat.min_eq_left (Nat.le_of_lt hl)]
      exact h2 _ _ this hcb rfl

theorem script_length (f : Forbidden) : (script f).length = f.pre.length + 1 := by simp [script, eventsOf]

/-! ### C58 -/

theorem before_status (f : Forbidden) (name : Str) (cbs : List Callback) :
    (before f name cbs).status.isRunning = true := by
  unfold before
  split
  · rfl
  · exact (entered_status f name 0 []).2.2 (eventsOf_pos f)

theorem reached_status (f : Forbidden) (name : Str) (c : Config) (hc : c.status.isRunning = true) (seen : List Callback)
    (hs : ∀ cb ∈ seen, cb ≠ .start) :
    let st := (reached f name c 0 seen).status
    (st = .fail ↔ script f <+: seen) ∧
    (st.isRunning = true ↔ seen <+: script f ∧ seen ≠ script f) ∧
    (st = .timeout ↔ Deviates (script f) seen .timeout) ∧
    (st = .bug ↔ Deviates (script f) seen .accepted) ∧
    (st = .offScript ↔ ∃ ch v, Deviates (script f) seen (.output ch v)) := by
  intro st
  have hpos : 0 < (script f).length := by rw [script_length]; omega
  have hlen : (script f).length = (eventsOf f).length := by simp [script]
  obtain ⟨hl1, hl2⟩ := progress_le (script f) seen
  simp only [deviates_iff]
  rw [← progress_full]
  have hrun : (seen <+: script f ∧ seen ≠ script f) ↔ progress (script f) seen = seen.length ∧ progress (script f) seen < (script f).length := by
    rw [← progress_seen]
    constructor
    · rintro ⟨h1, h2⟩
      refine ⟨h1, ?_⟩
      rcases Nat.lt_or_ge (progress (script f) seen) (script f).length with h | h
      · exact h
      · have hp := (progress_seen _ _).1 h1
        exact absurd (hp.eq_of_length (by omega)) h2
    · rintro ⟨h1, h2⟩
      refine ⟨h1, ?_⟩
      rintro rfl
      omega
  rw [hrun]
  have hst : st = (reached f name c 0 seen).status := rfl
  unfold reached at hst
  simp only [List.drop_zero, Nat.zero_add] at hst
  generalize hp : progress (script f) seen = p at *
  cases hcb : seen[p]? with
  | none =>
    have hge := List.getElem?_eq_none_iff.1 hcb
    rw [hcb] at hst
    simp only at hst
    have hpl : p = seen.length := by omega
    by_cases h0 : p = 0
    · rw [if_pos h0] at hst
      rw [hst]
      refine ⟨?_, ?_, ?_, ?_, ?_⟩
      · constructor
        · intro h; rw [h] at hc; cases hc
        · intro h; omega
      · rw [hc]; simp; omega
      all_goals
        constructor
        · intro h; rw [h] at hc; cases hc
        · simp
    · rw [if_neg h0] at hst
      obtain ⟨e1, e2⟩ := entered_status f name p []
      have e3 : (entered f name p []).status = .fail ↔ p = (eventsOf f).length := by
        unfold entered
        cases he : (eventsOf f)[p]? with
        | none =>
          have := List.getElem?_eq_none_iff.1 he
          simp; omega
        | some e =>
          have := (List.getElem?_eq_some_iff.1 he).1
          by_cases hk : e.channel.kind = kIn <;> simp [hk] <;> omega
      have e4 : (entered f name p []).status = .fail ∨ (entered f name p []).status.isRunning = true := by
        by_cases h : p = (eventsOf f).length
        · exact Or.inl (e3.2 h)
        · exact Or.inr (e2.2 (by omega))
      rw [← hst] at e2 e3 e4
      refine ⟨by rw [e3, hlen], by rw [e2]; omega, ?_, ?_, ?_⟩
      all_goals
        constructor
        · intro h; rw [h] at e4; simp [Status.isRunning] at e4
        · simp
  | some cb =>
    have hlt := (List.getElem?_eq_some_iff.1 hcb).1
    have hne := hs cb (List.mem_of_getElem? hcb)
    rw [hcb] at hst
    simp only at hst
    by_cases hpl : p = (script f).length
    · rw [if_pos hpl] at hst
      rw [hst]
      refine ⟨by simp [hpl], ?_, ?_, ?_, ?_⟩
      · simp [Status.isRunning]; omega
      all_goals simp; try omega
    · rw [if_neg hpl] at hst
      rw [hst]
      have hlt' : p < (script f).length := by omega
      cases cb with
      | start => exact absurd rfl hne
      | timeout => simp [derail, Status.isRunning, hlt', hpl]; omega
      | accepted => simp [derail, Status.isRunning, hlt', hpl]; omega
      | output ch v => simp [derail, Status.isRunning, hlt', hpl]; omega

theorem seen_no_start (f : Forbidden) (cbs : List Callback) : ∀ cb ∈ cbs.filter (counts f), cb ≠ .start := by
  rintro cb hcb rfl
  cases (List.mem_filter.1 hcb).2

/-- The test of a forbidden trace, driven by any callbacks, ends with FAIL exactly when what it saw starts with the whole trace:
the prefix, then the forbidden event. -/
theorem C58_fail_iff (f : Forbidden) (name : Str) (m : Stm) (h : BuiltFor f name m) (cbs : List Callback) :
    (run m cbs).status = .fail ↔ script f <+: cbs.filter (counts f) := by
  rw [run_builtFor h]
  exact (reached_status f name _ (before_status f name cbs) _ (seen_no_start f cbs)).1

/-- How the test ends otherwise: it runs on exactly as long as what it saw is part of the script, and then ends by what came
instead of the script: a timeout, an acknowledgement out of place (BUG), or an output out of place (OFF_SCRIPT). -/
theorem C58_endings (f : Forbidden) (name : Str) (m : Stm) (h : BuiltFor f name m) (cbs : List Callback) :
    ((run m cbs).status.isRunning = true ↔ cbs.filter (counts f) <+: script f ∧ cbs.filter (counts f) ≠ script f) ∧
    ((run m cbs).status = .timeout ↔ Deviates (script f) (cbs.filter (counts f)) .timeout) ∧
    ((run m cbs).status = .bug ↔ Deviates (script f) (cbs.filter (counts f)) .accepted) ∧
    ((run m cbs).status = .offScript ↔ ∃ ch v, Deviates (script f) (cbs.filter (counts f)) (.output ch v)) := by
  rw [run_builtFor h]
  exact (reached_status f name _ (before_status f name cbs) _ (seen_no_start f cbs)).2

example : (run exMachine [.start, .accepted, .output ⟨c!"b", .out⟩ (.int (-2)), .output ⟨c!"z", .out⟩ (.int 0),
    .output ⟨c!"b", .out⟩ (.int 3), .timeout]).status = .fail := by
  rw [C58_fail_iff exTrace c!"t" exMachine exMachine_built]; decide

example : (run exMachine [.start, .accepted, .output ⟨c!"b", .out⟩ (.int (-3)), .output ⟨c!"b", .out⟩ (.int 3)]).status = .offScript := by
  rfl

/-! ### C59 -/

/-- The verdict recorded: none before the start, then inconclusive while part of the prefix is to come, pass when only the forbidden
event is left, fail after it. -/
theorem C59_verdict (f : Forbidden) (name : Str) (m : Stm) (h : BuiltFor f name m) (cbs : List Callback) :
    (run m cbs).verdict = [(name,
      if StartsWithInput f ∧ ¬ Started f cbs ∧ progress (script f) (cbs.filter (counts f)) = 0 then oUnset
      else if progress (script f) (cbs.filter (counts f)) < f.pre.length then oInc
      else if progress (script f) (cbs.filter (counts f)) = f.pre.length then oPass
      else oFail)] := by
  rw [run_builtFor h]
  unfold reached
  simp only [List.drop_zero, Nat.zero_add]
  by_cases h0 : progress (script f) (cbs.filter (counts f)) = 0
  · rw [if_pos h0, h0]
    unfold before
    by_cases hb : StartsWithInput f ∧ ¬ Started f cbs
    · rw [if_pos hb, if_pos ⟨hb.1, hb.2, rfl⟩]
    · rw [if_neg hb, if_neg (fun h => hb ⟨h.1, h.2.1⟩)]
      rfl
  · rw [if_neg h0, if_neg (fun h => h0 h.2.2)]
    rfl

/-- It is fail exactly when the whole trace was seen, and pass exactly when the whole prefix but not the forbidden event was seen
(and, if the trace is just an input, the start delay is over). -/
theorem C59_verdict_iff (f : Forbidden) (name : Str) (m : Stm) (h : BuiltFor f name m) (cbs : List Callback) :
    (GoMap.get? (run m cbs).verdict name = some oFail ↔ script f <+: cbs.filter (counts f)) ∧
    (GoMap.get? (run m cbs).verdict name = some oPass ↔
      (f.pre.map observed <+: cbs.filter (counts f) ∧ ¬ script f <+: cbs.filter (counts f)) ∧
        ¬ (StartsWithInput f ∧ ¬ Started f cbs ∧ f.pre = [])) := by
  rw [C59_verdict f name m h]
  have hl := (progress_le (script f) (cbs.filter (counts f))).1
  rw [← progress_full]
  have hpre : f.pre.map observed <+: cbs.filter (counts f) ↔ f.pre.length ≤ progress (script f) (cbs.filter (counts f)) := by
    have hs : script f = f.pre.map observed ++ [observed f.forbid] := by simp [script, eventsOf]
    obtain ⟨h1, h2⟩ := progress_spec (script f) (cbs.filter (counts f))
    constructor
    · rintro ⟨r, hr⟩
      have := progress_mono (script f) (f.pre.map observed) r
      rw [(progress_seen (script f) (f.pre.map observed)).2 (by rw [hs]; exact List.prefix_append _ _), hr] at this
      simpa using this
    · intro hle
      have h3 : f.pre.map observed = (script f).take f.pre.length := by rw [hs]; simp
      have h4 : (script f).take f.pre.length = ((script f).take (progress (script f) (cbs.filter (counts f)))).take f.pre.length := by
        rw [List.take_take, Nat.min_eq_left hle]
      rw [h3, h4, h1, List.take_take, Nat.min_eq_left hle]
      exact List.take_prefix _ _
  rw [hpre]
  rw [script_length] at hl ⊢
  generalize progress (script f) (cbs.filter (counts f)) = p at *
  have hn : f.pre = [] ↔ f.pre.length = 0 := List.length_eq_zero_iff.symm
  rw [hn]
  simp only [GoMap.get?, if_true, Option.some.injEq]
  constructor
  · split
    · rename_i hc; obtain ⟨_, _, hc⟩ := hc; constructor
      · intro h; cases h
      · intro h; omega
    · split
      · constructor
        · intro h; cases h
        · intro h; omega
      · split
        · constructor
          · intro h; cases h
          · intro h; omega
        · constructor
          · intro h; omega
          · intro h; rfl
  · split
    · rename_i hc; obtain ⟨h1, h2, hc⟩ := hc; constructor
      · intro h; cases h
      · rintro ⟨h, h'⟩; exact absurd ⟨h1, h2, by omega⟩ h'
    · rename_i hc
      split
      · constructor
        · intro h; cases h
        · intro h; omega
      · split
        · constructor
          · intro h
            refine ⟨⟨by omega, by omega⟩, ?_⟩
            rintro ⟨h1, h2, h3⟩
            exact hc ⟨h1, h2, by omega⟩
          · intro h; rfl
        · constructor
          · intro h; cases h
          · intro h; omega

/-- More callbacks never take a verdict back. -/
theorem C59_monotone (f : Forbidden) (name : Str) (m : Stm) (h : BuiltFor f name m) (cbs more : List Callback) :
    ∃ o o', GoMap.get? (run m cbs).verdict name = some o ∧ GoMap.get? (run m (cbs ++ more)).verdict name = some o' ∧ rank o ≤ rank o' := by
  rw [C59_verdict f name m h, C59_verdict f name m h]
  refine ⟨_, _, by simp only [GoMap.get?, if_true]; rfl, by simp only [GoMap.get?, if_true]; rfl, ?_⟩
  rw [List.filter_append]
  have hmono := progress_mono (script f) (cbs.filter (counts f)) (more.filter (counts f))
  have hst : Started f cbs → Started f (cbs ++ more) := by
    unfold Started StartedIn
    intro hs
    rw [List.takeWhile_append]
    split
    · exact List.mem_append_left _ ((List.takeWhile_prefix _).subset hs)
    · exact hs
  generalize progress (script f) (cbs.filter (counts f)) = p at *
  generalize progress (script f) (cbs.filter (counts f) ++ more.filter (counts f)) = q at *
  by_cases hc' : StartsWithInput f ∧ ¬ Started f (cbs ++ more) ∧ q = 0
  · rw [if_pos ⟨hc'.1, fun hs => hc'.2.1 (hst hs), by omega⟩]
    exact Nat.zero_le _
  · rw [if_neg hc']
    by_cases hc : StartsWithInput f ∧ ¬ Started f cbs ∧ p = 0
    · rw [if_pos hc]; exact Nat.zero_le _
    · rw [if_neg hc]
      have r1 : rank oInc = 1 := rfl
      have r2 : rank oPass = 2 := rfl
      have r3 : rank oFail = 3 := rfl
      repeat' split
      all_goals omega

example : (run exMachine [.start, .accepted]).verdict = [(c!"t", oInc)] := by
  rw [C59_verdict exTrace c!"t" exMachine exMachine_built]; decide

/-! ### C61 -/

/-- The exit code of the test program of a forbidden trace: 1 exactly when the forbidden behaviour occurred, 2 exactly when an
acknowledgement came out of place, else 0. -/
theorem C61_exit_codes (f : Forbidden) (name : Str) (m : Stm) (h : BuiltFor f name m) (cbs : List Callback) :
    (exitCode (run m cbs) = 1 ↔ script f <+: cbs.filter (counts f)) ∧
    (exitCode (run m cbs) = 2 ↔ Deviates (script f) (cbs.filter (counts f)) .accepted) ∧
    (exitCode (run m cbs) = 0 ↔ ¬ script f <+: cbs.filter (counts f) ∧ ¬ Deviates (script f) (cbs.filter (counts f)) .accepted) := by
  rw [← C58_fail_iff f name m h, ← (C58_endings f name m h cbs).2.2.1]
  unfold exitCode
  cases (run m cbs).status <;> simp [Status.exitCode]

/-- For any machine: the exit code says FAIL, BUG or neither. -/
theorem C61_status (c : Config) :
    (exitCode c = 1 ↔ c.status = .fail) ∧ (exitCode c = 2 ↔ c.status = .bug) ∧
    (exitCode c = 0 ↔ c.status ≠ .fail ∧ c.status ≠ .bug) := by
  unfold exitCode
  cases c.status <;> simp [Status.exitCode]

end Rtcg.Harness
