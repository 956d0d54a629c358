import Verif.Proofs.CppSuite

/-
The test of a tree, driven by words.
-/

namespace Rtcg

namespace Spec

namespace Cpp

namespace Suite

open Templates Rtcg.Cpp Harness

variable {U : Unicode} {v : Variant} {root : Node} {name : Str} {m₀ m : Stm}

/-- The status while the test goes on. -/
theorem status_built (h : BuiltFrom root m₀) (hd : Deterministic root) (hf : ¬ Fails root) (done : List Callback) :
    ((Harness.run m₀ done).status.isRunning = true ↔ TreeOngoing root done) ∧
    ((Harness.run m₀ done).status = .waitStart ↔ TreeNotStarted root done) ∧
    ((Harness.run m₀ done).status = .waitIn ↔ TreeAwaitsInput root done) := by
  have hT := builtFrom_machineOf h
  have hseen : ∀ p, seenTo (labelled root) p = seenTo root p := fun p => seenTo_writeIds root [] p
  have hstart : (Harness.run m₀ done).status = .waitStart ↔ TreeNotStarted root done := by
    refine (waits_start hT done).trans ?_
    rw [sees_labelled]
    unfold TreeNotStarted
    exact and_congr_left fun _ => (first_iff hT).trans (rootInput_writeIds root [])
  obtain ⟨p, n, ht⟩ := track_run hT done
  obtain ⟨n', hn', hnn⟩ := at_labelled ht.at_
  have hfo := followed_any hT (fun h => hf ((fails_writeIds root []).1 h)) ht
  rw [sees_labelled] at hfo
  have hc := ht.cases
  rw [sees_labelled, hseen] at hc
  have hgot : (Harness.run m₀ done).status.isRunning = true → GotTo root done p n' := by
    intro hr
    rcases hc with ⟨_, h2, h3, h4⟩ | ⟨h1, _⟩ | ⟨cb, rest, h1, h2, _⟩
    · refine ⟨hn', ?_, h2, ?_⟩
      · have := ht.alive
        rw [hnn, (writeIds_id _ _ n').2.2.1] at this
        exact this
      · intro q k hq hk
        by_cases h0 : q = []
        · subst h0
          cases hk
          exact hf
        by_cases hqp : q = p
        · subst hqp
          rw [hn'] at hk
          cases hk
          have := h4 fun hw => h0 (h3 hw)
          rw [hnn, fails_writeIds] at this
          exact this
        · have := ht.above q _ hq hqp h0 (show nodeAt (labelled root) q = some (Builder.writeIds (finalIds root) q k) by
            unfold labelled
            rw [nodeAt_writeIds, hk]
            simp)
          rw [fails_writeIds] at this
          exact this
    · rw [h1] at hr; cases hr
    · rw [h2, derail_ended h1] at hr; cases hr
  have hsame : ∀ q k, GotTo root done q k → q = p ∧ k = n' ∧ (Harness.run m₀ done).status.isRunning = true := by
    intro q k hq
    have hfq : Followed root (done.filter (sees (treeEvents root))) q :=
      ⟨k, hq.1, hq.2.1, by rw [hq.2.2.1], fun r a h1 _ h2 => hq.2.2.2 r a h1 h2, .inl hq.2.2.1⟩
    have := followed_unique hT (deterministic_labelled hd) (followed_labelled.2 hfq) hfo
    subst this
    have hk := hq.1
    rw [hn'] at hk
    cases hk
    refine ⟨rfl, rfl, ?_⟩
    rcases hc with ⟨h1, _⟩ | ⟨_, h2, _⟩ | ⟨cb, rest, _, _, h3, _⟩
    · exact h1
    · rw [hnn, fails_writeIds] at h2
      exact absurd h2 (hq.2.2.2 q n' List.prefix_rfl hn')
    · have := hq.2.2.1
      rw [h3] at this
      have := congrArg List.length this
      simp at this
  refine ⟨⟨fun hr => ⟨p, n', hgot hr⟩, fun ⟨q, k, hq⟩ => (hsame q k hq).2.2⟩, hstart, ?_⟩
  have hw := ht.waits
  rw [hnn, rootInput_writeIds] at hw
  constructor
  · intro hwi
    exact ⟨fun hns => (by rw [hstart.2 hns] at hwi; cases hwi), p, n', hgot (by rw [hwi]; rfl), hw.1 hwi⟩
  · rintro ⟨hns, q, k, hq, hi⟩
    obtain ⟨rfl, rfl, hr⟩ := hsame q k hq
    cases hst : (Harness.run m₀ done).status with
    | waitIn => rfl
    | waitStart => exact absurd (hstart.1 hst) hns
    | waitOut => exact absurd hi (hw.2 hst)
    | _ => rw [hst] at hr; cases hr

theorem status_tree (h : Same root m₀ m) (hd : Deterministic root) (hf : ¬ Fails root) (done : List Callback) :
    ((Harness.run m done).status.isRunning = true ↔ TreeOngoing root done) ∧
    ((Harness.run m done).status = .waitStart ↔ TreeNotStarted root done) ∧
    ((Harness.run m done).status = .waitIn ↔ TreeAwaitsInput root done) := by
  rw [← (same_run h.same.1 h.maps₀ h.maps h.same.2.2 done).status]
  exact status_built h.built hd hf done

theorem hasIn (h : Same root m₀ m) : (TransitionContext.make m).hasIn = true ↔ ∃ e ∈ treeEvents root, e.channel.kind = kIn :=
  (C39_hasIn m).2.trans (uses' h (fun c => c.kind = kIn))

theorem find_out (hs : Same root m₀ m)
    (hd : ∀ e ∈ treeEvents root, ∀ e' ∈ treeEvents root, e.channel.kind ≠ kIn → e'.channel.kind ≠ kIn → e.channel.name = e'.channel.name →
      e.channel = e'.channel) (w : Str) :
    ((TransitionContext.make m).out.find? (fun a => a.channel.name = w)).map (·.channel) =
      ((treeEvents root).find? (fun e => e.channel.kind ≠ kIn ∧ e.channel.name = w)).map (·.channel) := by
  have hout : ∀ a ∈ (TransitionContext.make m).out, ∃ e ∈ treeEvents root, e.channel = a.channel ∧ e.channel.kind ≠ kIn := by
    intro a ha
    rw [(C39_partition m).2.2.2, List.mem_filter] at ha
    obtain ⟨s', h3, x', h4, h5⟩ := Good.agg_channel ha.1
    obtain ⟨e', he', h6⟩ := (uses hs).1 ⟨s', h3, x', h4, h5⟩
    exact ⟨e', he', h6, by rw [h6]; simpa using ha.2⟩
  cases h1 : (TransitionContext.make m).out.find? (fun a => a.channel.name = w) with
  | none =>
    cases h2 : (treeEvents root).find? (fun e => e.channel.kind ≠ kIn ∧ e.channel.name = w) with
    | none => rfl
    | some e =>
      exfalso
      have he := List.mem_of_find?_eq_some h2
      have hp := List.find?_some h2
      simp only [decide_eq_true_eq] at hp
      obtain ⟨s, h3, x, hx, h4⟩ := (uses hs).2 ⟨e, he, rfl⟩
      obtain ⟨a, hmem, hac⟩ : ∃ a ∈ (TransitionContext.make m).out, a.channel = e.channel := by
        have hf := Harness.find_out m e.channel
        cases hfo : (TransitionContext.make m).out.find? (fun a => a.channel = e.channel) with
        | none =>
          rw [hfo] at hf
          exact absurd ⟨hp.1, s, h3, x, hx, h4⟩ hf
        | some a =>
          rw [hfo] at hf
          exact ⟨a, List.mem_of_find?_eq_some hfo, hf.2.1⟩
      have := List.find?_eq_none.1 h1 a hmem
      rw [hac] at this
      simp [hp.2] at this
  | some a =>
    obtain ⟨e', he', h3, h4⟩ := hout a (List.mem_of_find?_eq_some h1)
    have hn : a.channel.name = w := by simpa using List.find?_some h1
    cases h2 : (treeEvents root).find? (fun e => e.channel.kind ≠ kIn ∧ e.channel.name = w) with
    | none =>
      have := List.find?_eq_none.1 h2 e' he'
      simp [h4, h3, hn] at this
      rw [h3] at h4
      exact absurd this h4
    | some e =>
      have he := List.mem_of_find?_eq_some h2
      have hp := List.find?_some h2
      simp only [decide_eq_true_eq] at hp
      simp only [Option.map_some, Option.some.injEq]
      rw [← h3]
      exact hd e' he' e he h4 hp.1 (by rw [hp.2, h3, hn])

open Classical in
/-- What a typed word means to a test in some status: a callback, or nothing -/
noncomputable def meaningIn (root : Node) (s : Status) (w : Str × Value) : Option Callback :=
  if w.1 = c!"timeout" then some .timeout
  else if RootInput root ∧ w.1 = c!"ready" ∧ s = .waitStart then some .start
  else if (∃ e ∈ treeEvents root, e.channel.kind = kIn) ∧ w.1 = c!"accept" ∧ s = .waitIn then some .accepted
  else ((treeEvents root).find? (fun e => e.channel.kind ≠ kIn ∧ e.channel.name = w.1)).map (fun e => .output e.channel w.2)

theorem animateStep_eq (hs : Same root m₀ m)
    (hd : ∀ e ∈ treeEvents root, ∀ e' ∈ treeEvents root, e.channel.kind ≠ kIn → e'.channel.kind ≠ kIn → e.channel.name = e'.channel.name →
      e.channel = e'.channel) (c : Config) (w : Str × Value) :
    animateStep m c w.1 w.2 = match meaningIn root c.status w with
      | some cb => step m c cb
      | none => c := by
  unfold animateStep meaningIn
  by_cases h1 : w.1 = c!"timeout"
  · rw [if_pos h1, if_pos h1]
  rw [if_neg h1, if_neg h1]
  by_cases h2 : RootInput root ∧ w.1 = c!"ready" ∧ c.status = .waitStart
  · rw [if_pos ⟨(firstHasIn hs).2 h2.1, h2.2⟩, if_pos h2]
  rw [if_neg fun h => h2 ⟨(firstHasIn hs).1 h.1, h.2⟩, if_neg h2]
  by_cases h3 : (∃ e ∈ treeEvents root, e.channel.kind = kIn) ∧ w.1 = c!"accept" ∧ c.status = .waitIn
  · rw [if_pos ⟨(hasIn hs).2 h3.1, h3.2⟩, if_pos h3]
  rw [if_neg fun h => h3 ⟨(hasIn hs).1 h.1, h.2⟩, if_neg h3]
  have h := find_out hs hd w.1
  cases h1 : (TransitionContext.make m).out.find? (fun a => a.channel.name = w.1) with
  | none =>
    rw [h1] at h
    cases h2 : (treeEvents root).find? (fun e => e.channel.kind ≠ kIn ∧ e.channel.name = w.1) with
    | none => rfl
    | some e => rw [h2] at h; cases h
  | some a =>
    rw [h1] at h
    cases h2 : (treeEvents root).find? (fun e => e.channel.kind ≠ kIn ∧ e.channel.name = w.1) with
    | none => rw [h2] at h; cases h
    | some e =>
      rw [h2] at h
      simp only [Option.map_some, Option.some.injEq] at h
      simp only [Option.map_some]
      rw [h]

theorem meaning_eq (hs : Same root m₀ m) (hd : Deterministic root) (hf : ¬ Fails root) (done : List Callback) (w : Str × Value) :
    meaningIn root (Harness.run m done).status w = treeMeaning root done w := by
  obtain ⟨_, h1, h2⟩ := status_tree hs hd hf done
  unfold meaningIn treeMeaning
  have a : (RootInput root ∧ w.1 = c!"ready" ∧ (Harness.run m done).status = .waitStart) ↔ w.1 = c!"ready" ∧ TreeNotStarted root done := by
    rw [h1]
    exact ⟨fun h => h.2, fun h => ⟨h.2.1, h⟩⟩
  have b : ((∃ e ∈ treeEvents root, e.channel.kind = kIn) ∧ w.1 = c!"accept" ∧ (Harness.run m done).status = .waitIn) ↔
      w.1 = c!"accept" ∧ TreeAwaitsInput root done := by
    rw [h2]
    refine ⟨fun h => h.2, fun h => ⟨?_, h⟩⟩
    obtain ⟨_, _, p, n, hg, k, hk, _, e, he, hkind⟩ := h
    obtain ⟨i, hi⟩ := List.getElem?_of_mem hk
    refine ⟨e, mem_treeEvents.2 ⟨p ++ [i], k, ?_, he⟩, hkind⟩
    rw [nodeAt_snoc, hg.1]
    exact hi
  by_cases h1 : w.1 = c!"timeout"
  · rw [if_pos h1, if_pos h1]
  rw [if_neg h1, if_neg h1]
  by_cases h2 : w.1 = c!"ready" ∧ TreeNotStarted root done
  · rw [if_pos (a.2 h2), if_pos h2]
  rw [if_neg fun h => h2 (a.1 h), if_neg h2]
  by_cases h3 : w.1 = c!"accept" ∧ TreeAwaitsInput root done
  · rw [if_pos (b.2 h3), if_pos h3]
  rw [if_neg fun h => h3 (b.1 h), if_neg h3]

/-- One typed word. -/
theorem animate_one (hs : Same root m₀ m) (hd : Deterministic root) (hf : ¬ Fails root)
    (hu : ∀ e ∈ treeEvents root, ∀ e' ∈ treeEvents root, e.channel.kind ≠ kIn → e'.channel.kind ≠ kIn → e.channel.name = e'.channel.name →
      e.channel = e'.channel) (done : List Callback) (hr : (Harness.run m done).status.isRunning = true) (w : Str × Value) :
    animateStep m (Harness.run m done) w.1 w.2 = Harness.run m (done ++ (treeMeaning root done w).toList) := by
  rw [animateStep_eq hs hu, meaning_eq hs hd hf done]
  cases treeMeaning root done w with
  | none => simp
  | some cb => exact (Trace.run_snoc m done cb hr).symm

theorem run_ended_meanings (root : Node) (m : Stm) (ws : List (Str × Value))
    (done : List Callback) (h : (Harness.run m done).status.isRunning = false) : Harness.run m (treeMeanings root done ws) = Harness.run m done := by
  induction ws generalizing done with
  | nil => rfl
  | cons w ws ih =>
    rw [treeMeanings, ih _ (by rw [C60_run m done _ h]; exact h), C60_run m done _ h]

theorem animate_run (hs : Same root m₀ m) (hd : Deterministic root) (hf : ¬ Fails root)
    (hu : ∀ e ∈ treeEvents root, ∀ e' ∈ treeEvents root, e.channel.kind ≠ kIn → e'.channel.kind ≠ kIn → e.channel.name = e'.channel.name →
      e.channel = e'.channel) (ws : List (Str × Value)) : animate m ws = Harness.run m (treeMeanings root [] ws) := by
  have key : ∀ ws done, ws.foldl (fun c w => if c.status.isRunning then animateStep m c w.1 w.2 else c) (Harness.run m done) =
      Harness.run m (treeMeanings root done ws) := by
    intro ws
    induction ws with
    | nil => intro done; rfl
    | cons w ws ih =>
      intro done
      rw [List.foldl_cons]
      by_cases hr : (Harness.run m done).status.isRunning = true
      · rw [if_pos hr, animate_one hs hd hf hu done hr w, ih]
        rfl
      · rw [if_neg hr, ih, run_ended_meanings root m _ _ (by simpa using hr), run_ended_meanings root m _ _ (by simpa using hr)]
  exact key ws []

/-- What is typed. -/
theorem typed_eq (hs : Same root m₀ m) (hd : Deterministic root) (hf : ¬ Fails root)
    (hu : ∀ e ∈ treeEvents root, ∀ e' ∈ treeEvents root, e.channel.kind ≠ kIn → e'.channel.kind ≠ kIn → e.channel.name = e'.channel.name →
      e.channel = e'.channel) (ws : List (Str × Value)) : typed m (construct m) ws = treeTyping root [] ws := by
  have hone : ∀ c w, typedOne m c w = match meaningIn root c.status w with
      | some (.output _ x) => [w.1, x.stringValue]
      | _ => [w.1] := by
    intro c w
    have h := find_out hs hu w.1
    have hany : (TransitionContext.make m).out.any (fun a => a.channel.name = w.1) =
        ((treeEvents root).find? (fun e => e.channel.kind ≠ kIn ∧ e.channel.name = w.1)).isSome := by
      have := congrArg Option.isSome h
      rw [Option.isSome_map, Option.isSome_map] at this
      rw [← this, Bool.eq_iff_iff, List.find?_isSome, List.any_eq_true]
    unfold typedOne isCommand meaningIn
    rw [hany]
    by_cases h1 : w.1 = c!"timeout"
    · simp [h1]
    by_cases h2 : RootInput root ∧ w.1 = c!"ready" ∧ c.status = .waitStart
    · have := (firstHasIn hs).2 h2.1
      rw [if_neg h1, if_pos h2]
      simp [this, h2.2.1, h2.2.2]
    by_cases h3 : (∃ e ∈ treeEvents root, e.channel.kind = kIn) ∧ w.1 = c!"accept" ∧ c.status = .waitIn
    · have := (hasIn hs).2 h3.1
      rw [if_neg h1, if_neg h2, if_pos h3]
      simp [this, h3.2.1, h3.2.2]
    rw [if_neg h1, if_neg h2, if_neg h3, if_neg]
    · cases (treeEvents root).find? (fun e => e.channel.kind ≠ kIn ∧ e.channel.name = w.1) <;> rfl
    · simp only [Bool.or_eq_true, Bool.and_eq_true, decide_eq_true_eq, firstHasIn hs, hasIn hs]
      rintro ((h | h) | h)
      · exact h1 h
      · exact h2 h
      · exact h3 h
  have key : ∀ ws done, typed m (Harness.run m done) ws = treeTyping root done ws := by
    intro ws
    induction ws with
    | nil => intro done; rfl
    | cons w ws ih =>
      intro done
      rw [typed, treeTyping]
      by_cases hr : (Harness.run m done).status.isRunning = true
      · have ho := (status_tree hs hd hf done).1.1 hr
        rw [if_pos hr, if_pos ho, animate_one hs hd hf hu done hr w, ih, hone, meaning_eq hs hd hf done]
        rfl
      · rw [if_neg hr, if_neg (fun ho => hr ((status_tree hs hd hf done).1.2 ho))]
  exact key ws []

/-- Accepting an input that was not sent means nothing, so it is never out of place. -/
theorem not_bug (h : BuiltFrom root m₀) (hd : Deterministic root) (hf : ¬ Fails root) (ws : List (Str × Value)) (done : List Callback)
    (hb : (Harness.run m₀ done).status ≠ .bug) : (Harness.run m₀ (treeMeanings root done ws)).status ≠ .bug := by
  have hT := builtFrom_machineOf h
  induction ws generalizing done with
  | nil => exact hb
  | cons w ws ih =>
    rw [treeMeanings]
    refine ih _ ?_
    by_cases hr : (Harness.run m₀ done).status.isRunning = true
    · cases hm : treeMeaning root done w with
      | none => rw [Option.toList_none, List.append_nil]; exact hb
      | some cb =>
        rw [Option.toList_some, Trace.run_snoc m₀ done cb hr]
        obtain ⟨p, n, ht⟩ := track_run hT done
        by_cases hcb : cb = .start
        · subst hcb
          show (initialDelayCallback m₀ _).status ≠ _
          unfold initialDelayCallback
          split
          · split
            · exact hb
            · rw [initial_id hT]
              obtain ⟨h1, h2⟩ := enter_status hT (p := []) rfl (root_alive hT) (Harness.run m₀ done) hr
              by_cases hf : Fails (labelled root)
              · rw [h1 hf]; simp
              · rcases h2 hf with h | h <;> rw [h] <;> simp
          · exact hb
        · rcases tree_step hT ht.at_ ht.alive _ ht.state cb hcb with ⟨_, he⟩ | ⟨_, i, k, e, hi, hko, _, _, he⟩ | ⟨_, hno, he⟩
          · rw [he]; exact hb
          · rw [he]
            obtain ⟨h1, h2⟩ := enter_status hT (child_ok hT ht.at_ hi).1 hko (Harness.run m₀ done) hr
            by_cases hf : Fails k
            · rw [h1 hf]; simp
            · rcases h2 hf with h | h <;> rw [h] <;> simp
          · rw [he, finish_running hr (derail_ended hcb)]
            cases cb with
            | start => exact absurd rfl hcb
            | timeout => simp [derail]
            | output c x => simp [derail]
            | accepted =>
              exfalso
              have haw : TreeAwaitsInput root done := by
                unfold treeMeaning at hm
                split at hm
                · cases hm
                · split at hm
                  · cases hm
                  · split at hm
                    · rename_i h; exact h.2
                    · cases hx : (treeEvents root).find? (fun e => e.channel.kind ≠ kIn ∧ e.channel.name = w.1) with
                      | none => rw [hx] at hm; cases hm
                      | some e => rw [hx] at hm; cases hm
              have hwi := (status_built h hd hf done).2.2.2 haw
              obtain ⟨k, hk, hko, e, he', hkind⟩ := ht.waits.1 hwi
              refine hno ⟨k, hk, hko, e, he', ?_⟩
              unfold observed
              rw [if_pos hkind]
    · rw [C60_run m₀ done _ (by simpa using hr)]
      exact hb

end Suite

end Cpp

end Spec

end Rtcg
