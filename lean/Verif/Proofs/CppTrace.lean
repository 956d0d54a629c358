import Verif.Spec.CppTrace
import Verif.Proofs.CppGood
import Verif.Props.EndToEnd
import Verif.Props.HarnessTree
import Verif.Props.Templates

/-
The test of a forbidden trace: names, libraries, callbacks.
-/

namespace Rtcg

namespace Spec

namespace Cpp

namespace Trace

open Templates Rtcg.Cpp Harness

variable {U : Unicode} {v : Variant} {f : Forbidden} {name : Str} {m : Stm}

theorem sets (hs : m.states = linearStates f name) {s : State} (h : s ∈ m.states) {x : TSet} (hx : x ∈ s.transitionSets) :
    ∃ e ∈ eventsOf f, x.channel = e.channel ∧ ∃ next, x.transitions = [⟨e.value, next⟩] := by
  rw [hs] at h
  obtain ⟨k, hk, rfl⟩ := List.mem_map.1 h
  unfold linearState at hx
  simp only at hx
  cases he : (eventsOf f)[k]? with
  | none => rw [he] at hx; cases hx
  | some e =>
    rw [he] at hx
    simp only [List.mem_singleton] at hx
    subst hx
    exact ⟨e, List.mem_of_getElem? he, rfl, _, rfl⟩

theorem events_length (f : Forbidden) : (eventsOf f).length = f.pre.length + 1 := by
  unfold eventsOf
  simp

theorem event_set (hs : m.states = linearStates f name) {e : Rtcg.Event} (h : e ∈ eventsOf f) :
    ∃ s ∈ m.states, ∃ x ∈ s.transitionSets, x.channel = e.channel ∧ ∃ next, x.transitions = [⟨e.value, next⟩] := by
  obtain ⟨k, hk, he⟩ := List.getElem_of_mem h
  have he' : (eventsOf f)[k]? = some e := by rw [List.getElem?_eq_getElem hk, he]
  refine ⟨linearState f name k, ?_, ⟨e.channel, [⟨e.value, stateName (k + 1)⟩]⟩, ?_, rfl, _, rfl⟩
  · rw [hs]
    refine List.mem_map.2 ⟨k, List.mem_range.2 ?_, rfl⟩
    rw [events_length] at hk
    omega
  · unfold linearState
    simp [he']

theorem uses (hs : m.states = linearStates f name) {c : Channel} : UsesChannel m c ↔ ∃ e ∈ eventsOf f, e.channel = c := by
  constructor
  · rintro ⟨s, h, x, hx, rfl⟩
    obtain ⟨e, he, h1, _⟩ := sets hs h hx
    exact ⟨e, he, h1.symm⟩
  · rintro ⟨e, he, rfl⟩
    obtain ⟨s, h, x, hx, h1, _⟩ := event_set hs he
    exact ⟨s, h, x, hx, h1⟩

theorem first_input (hs : m.states = linearStates f name) : FirstSendsInput m ↔ StartsWithInput f := by
  have hh : m.states.head? = some (linearState f name 0) := by
    rw [hs]
    unfold linearStates
    rw [List.range_succ_eq_map]
    rfl
  unfold FirstSendsInput StartsWithInput
  rw [hh]
  constructor
  · rintro ⟨s, h, x, hx, hk⟩
    cases h
    unfold linearState at hx
    simp only at hx
    cases he : (eventsOf f)[0]? with
    | none => rw [he] at hx; cases hx
    | some e =>
      rw [he] at hx
      simp only [List.mem_singleton] at hx
      subst hx
      exact ⟨e, by rw [List.head?_eq_getElem?, he], hk⟩
  · rintro ⟨e, he, hk⟩
    rw [List.head?_eq_getElem?] at he
    refine ⟨_, rfl, ⟨e.channel, [⟨e.value, stateName 1⟩]⟩, ?_, hk⟩
    unfold linearState
    simp [he]

theorem sends_input (hs : m.states = linearStates f name) : SendsInput m ↔ ∃ e ∈ eventsOf f, e.channel.kind = kIn := by
  unfold SendsInput
  constructor
  · rintro ⟨c, h1, h2⟩
    obtain ⟨e, he, rfl⟩ := (uses hs).1 h1
    exact ⟨e, he, h2⟩
  · rintro ⟨e, he, hk⟩
    exact ⟨e.channel, (uses hs).2 ⟨e, he, rfl⟩, hk⟩

theorem ne_head {a b : Str} {c d : Char} (ha : a.head? = some c) (hb : b.head? = some d) (h : c ≠ d) : a ≠ b := by
  rintro rfl
  rw [ha] at hb
  cases hb
  exact h rfl

theorem wellNamed (hU : U.AsciiOK) {ts : GoMap Str Validate.Test} {r : StmSuite} (h : MadeFrom ts r) (hno : ∀ nt ∈ ts, NoIds nt.2.root)
    (hm : (name, m) ∈ r.tests) (hs : m.states = linearStates f name) (ht : GoSet.values m.tests = [name]) (hn : TraceNames U v f name) :
    WellNamed U v m := by
  have hdo : DistinctBy id m IsOut := by
    rintro c c' h1 h2 h3 h4 h5
    obtain ⟨e, he, rfl⟩ := (uses hs).1 h1
    obtain ⟨e', he', rfl⟩ := (uses hs).1 h2
    exact hn.distinct e he e' he' h3 h4 h5
  have hout : ∀ n, n ∈ [c!"timeout", c!"initialDelay", c!"inputAccepted"] → ¬ HasOut m n := by
    rintro n hn' ⟨c, h1, h2, rfl⟩
    obtain ⟨e, he, rfl⟩ := (uses hs).1 h1
    exact hn.outputs e he h2 hn'
  refine ⟨?_, ?_, ?_, ?_, ?_, ?_, ?_⟩
  · intro s h x hx
    obtain ⟨e, he, h1, _⟩ := sets hs h hx
    rw [h1]
    exact (hn.words e he).1
  · intro s h x hx t ht
    obtain ⟨e, he, h1, next, h2⟩ := sets hs h hx
    rw [h2] at ht
    rw [List.mem_singleton.1 ht]
    exact (hn.words e he).2
  · intro t h
    rw [ht] at h
    rw [List.mem_singleton.1 h]
    exact hn.test.1
  · rw [C75_members_partial ts r h hno U hU v name m hm]
    refine ⟨hdo, hout _ (by decide), fun h => hout _ (by decide) h.2, fun h => hout _ (by decide) h.2, ?_⟩
    intro hv c c' h1 h2 h3 h4 h5
    obtain ⟨e, he, rfl⟩ := (uses hs).1 h1
    obtain ⟨e', he', rfl⟩ := (uses hs).1 h2
    exact (hn.topics hv e he).1 e' he' ⟨fun _ => h4, fun _ => h3⟩ h5
  · rw [C76_verdict_members_partial ts r h name m hm, ht]
    refine ⟨?_, ?_, ?_⟩
    · intro h; exact hn.test.2.1 (List.mem_singleton.1 h).symm
    · intro h; exact hn.test.2.2 (List.mem_singleton.1 h).symm
    · intro t h1 h2
      rw [List.mem_singleton] at h1 h2
      rw [h1] at h2
      exact absurd (congrArg List.length h2) (by simp)
  · intro s h1 x hx
    obtain ⟨e, he, hxe, _⟩ := sets hs h1 hx
    rw [hxe]
    have key : ∀ g ∈ [convertTo U e.channel.name, convertFrom U e.channel.name], g ∉ classMembers U v m := by
      intro g hg hmem
      obtain ⟨hfst, hsnd⟩ : (∃ c, g.head? = some c ∧ (c = 't' ∨ c = 'f')) ∧ ∀ c, g.head? = some 't' → g[1]? = some c → c = 'o' := by
        rcases List.mem_cons.1 hg with rfl | hg
        · exact ⟨⟨'t', rfl, .inl rfl⟩, fun c _ h => by cases h; rfl⟩
        · rw [List.mem_singleton.1 hg]
          exact ⟨⟨'f', rfl, .inr rfl⟩, fun c h => by cases h⟩
      have hfixed : ∀ w : Str, (∃ c, w.head? = some c ∧ c ≠ 't' ∧ c ≠ 'f') → g ≠ w := by
        rintro w ⟨c, h2, h3, h4⟩ rfl
        obtain ⟨d, h5, h6⟩ := hfst
        rw [h5] at h2
        cases h2
        rcases h6 with rfl | rfl
        · exact h3 rfl
        · exact h4 rfl
      have hto : g ≠ c!"timeoutCallback" := by
        rintro rfl
        exact absurd (hsnd 'i' rfl rfl) (by decide)
      unfold classMembers at hmem
      simp only [List.mem_append, List.mem_cons, List.not_mem_nil, or_false] at hmem
      rcases hmem with ((((((hmem | hmem) | hmem) | hmem) | hmem) | hmem) | hmem) | hmem
      · rcases hmem with rfl | rfl
        · exact hfixed c!"getVerdict" ⟨'g', rfl, by decide, by decide⟩ rfl
        · exact hto rfl
      · split at hmem
        · exact hfixed _ ⟨'i', rfl, by decide, by decide⟩ (List.mem_singleton.1 hmem)
        · cases hmem
      · split at hmem
        · exact hfixed _ ⟨'i', rfl, by decide, by decide⟩ (List.mem_singleton.1 hmem)
        · cases hmem
      · obtain ⟨a, ha, rfl⟩ := List.mem_map.1 hmem
        rw [(C39_partition m).2.2.2, List.mem_filter] at ha
        obtain ⟨s', h3, x', h4, h5⟩ := Good.agg_channel ha.1
        obtain ⟨e', he', h6⟩ := (uses hs).1 ⟨s', h3, x', h4, h5⟩
        rw [← h6] at hg hmem
        exact (hn.convert e he e' he' _ hg).1 rfl
      · rcases hmem with rfl | rfl
        · exact hfixed c!"verdict_" ⟨'v', rfl, by decide, by decide⟩ rfl
        · exact hfixed c!"state_" ⟨'s', rfl, by decide, by decide⟩ rfl
      · unfold stmFields at hmem
        split at hmem
        · rename_i hv
          obtain ⟨a, ha, rfl⟩ := List.mem_map.1 hmem
          rw [(C39_partition m).2.2.1, List.mem_filter] at ha
          obtain ⟨s', h3, x', h4, h5⟩ := Good.agg_channel ha.1
          obtain ⟨e', he', h6⟩ := (uses hs).1 ⟨s', h3, x', h4, h5⟩
          rw [← h6] at hg hmem
          exact (hn.convert e he e' he' _ hg).2 hv rfl
        · cases hmem
      · obtain ⟨s', hs', rfl⟩ := List.mem_map.1 hmem
        exact hfixed _ ⟨'e', rfl, by decide, by decide⟩ rfl
      · rcases hmem with rfl | rfl
        · exact hfixed c!"stateName" ⟨'s', rfl, by decide, by decide⟩ rfl
        · exact hfixed c!"end" ⟨'e', rfl, by decide, by decide⟩ rfl
    exact ⟨key _ (by simp), key _ (by simp)⟩
  · intro hv
    rw [C78_locals_partial]
    refine ⟨?_, ?_, ?_⟩
    · intro c c' h1 h2 h3 h4 h5
      obtain ⟨e, he, rfl⟩ := (uses hs).1 h1
      obtain ⟨e', he', rfl⟩ := (uses hs).1 h2
      exact (hn.topics hv e he).1 e' he' ⟨fun _ => h4, fun _ => h3⟩ h5
    · intro c c' h1 h2 h3 h4 h5
      obtain ⟨e, he, rfl⟩ := (uses hs).1 h1
      obtain ⟨e', he', rfl⟩ := (uses hs).1 h2
      exact (hn.topics hv e he).1 e' he' ⟨fun h => absurd h h3, fun h => absurd h h4⟩ h5
    · rintro ⟨_, c, h1, h2, h3⟩
      obtain ⟨e, he, rfl⟩ := (uses hs).1 h1
      exact (hn.topics hv e he).2 h2 h3

theorem provides {L : Lib} (hs : m.states = linearStates f name) (hL : TraceLib L U v f) : Provides L U v m := by
  refine ⟨hL.std, ?_, fun hv => ⟨(hL.ros hv).1, (hL.ros hv).2.1, ?_⟩⟩
  · intro s h x hx
    obtain ⟨e, he, h1, _⟩ := sets hs h hx
    rw [h1]
    exact hL.convert e he
  · intro s h x hx
    obtain ⟨e, he, h1, _⟩ := sets hs h hx
    rw [h1]
    exact (hL.ros hv).2.2 e he

theorem hasCallback (hs : m.states = linearStates f name) {cb : Callback} (h : TraceCallback f cb) : HasCallback m cb := by
  cases cb with
  | timeout => trivial
  | start => exact (first_input hs).2 h
  | accepted =>
    obtain ⟨e, he, hk⟩ := h
    obtain ⟨s, h1, x, hx, h2, _⟩ := event_set hs he
    exact ⟨s, h1, x, hx, by rw [h2]; exact hk⟩
  | output c x =>
    obtain ⟨h1, h2, h3, h4⟩ := h
    refine ⟨(uses hs).2 h1, h2, h3, ?_⟩
    intro s hs' y hy hc t ht
    obtain ⟨e, he, h5, next, h6⟩ := sets hs hs' hy
    rw [h6] at ht
    rw [List.mem_singleton.1 ht]
    exact h4 e he (h5 ▸ hc)

theorem firstHasIn (hs : m.states = linearStates f name) : (TransitionContext.make m).firstStateHasIn = true ↔ StartsWithInput f :=
  (C39_firstStateHasIn m).trans (first_input hs)

theorem hasIn (hs : m.states = linearStates f name) :
    (TransitionContext.make m).hasIn = true ↔ ∃ e ∈ eventsOf f, e.channel.kind = kIn := by
  refine (C39_hasIn m).2.trans ?_
  constructor
  · rintro ⟨s, h, x, hx, hk⟩
    obtain ⟨e, he, h1, _⟩ := sets hs h hx
    exact ⟨e, he, h1 ▸ hk⟩
  · rintro ⟨e, he, hk⟩
    obtain ⟨s, h1, x, hx, h2, _⟩ := event_set hs he
    exact ⟨s, h1, x, hx, by rw [h2]; exact hk⟩

theorem find_out (hs : m.states = linearStates f name)
    (hd : ∀ e ∈ eventsOf f, ∀ e' ∈ eventsOf f, e.channel.kind ≠ kIn → e'.channel.kind ≠ kIn → e.channel.name = e'.channel.name →
      e.channel = e'.channel) (w : Str) :
    ((TransitionContext.make m).out.find? (fun a => a.channel.name = w)).map (·.channel) =
      ((eventsOf f).find? (fun e => e.channel.kind ≠ kIn ∧ e.channel.name = w)).map (·.channel) := by
  have hout : ∀ a ∈ (TransitionContext.make m).out, ∃ e ∈ eventsOf f, e.channel = a.channel ∧ e.channel.kind ≠ kIn := by
    intro a ha
    rw [(C39_partition m).2.2.2, List.mem_filter] at ha
    obtain ⟨s', h3, x', h4, h5⟩ := Good.agg_channel ha.1
    obtain ⟨e', he', h6⟩ := (uses hs).1 ⟨s', h3, x', h4, h5⟩
    exact ⟨e', he', h6, by rw [h6]; simpa using ha.2⟩
  cases h1 : (TransitionContext.make m).out.find? (fun a => a.channel.name = w) with
  | none =>
    cases h2 : (eventsOf f).find? (fun e => e.channel.kind ≠ kIn ∧ e.channel.name = w) with
    | none => rfl
    | some e =>
      exfalso
      have he := List.mem_of_find?_eq_some h2
      have hp := List.find?_some h2
      simp only [decide_eq_true_eq] at hp
      obtain ⟨s, h3, x, hx, h4, _⟩ := event_set hs he
      obtain ⟨a, hmem, hac⟩ : ∃ a ∈ (TransitionContext.make m).out, a.channel = e.channel := by
        have hf := Harness.find_out m e.channel
        cases hfo : (TransitionContext.make m).out.find? (fun a => a.channel = e.channel) with
        | none =>
          rw [hfo] at hf
          exact absurd ⟨hp.1, s, h3, x, hx, h4⟩ hf
        | some a =>
          rw [hfo] at hf
          exact ⟨a, List.mem_of_find?_eq_some hfo, hf.2.1⟩
      have := List.find?_eq_none.1 h1 a hmem
      rw [hac] at this
      simp [hp.2] at this
  | some a =>
    obtain ⟨e', he', h3, h4⟩ := hout a (List.mem_of_find?_eq_some h1)
    have hn : a.channel.name = w := by simpa using List.find?_some h1
    cases h2 : (eventsOf f).find? (fun e => e.channel.kind ≠ kIn ∧ e.channel.name = w) with
    | none =>
      have := List.find?_eq_none.1 h2 e' he'
      simp [h4, h3, hn] at this
      rw [h3] at h4
      exact absurd this h4
    | some e =>
      have he := List.mem_of_find?_eq_some h2
      have hp := List.find?_some h2
      simp only [decide_eq_true_eq] at hp
      simp only [Option.map_some, Option.some.injEq]
      rw [← h3]
      exact hd e' he' e he h4 hp.1 (by rw [hp.2, h3, hn])

/-- What a typed word means to a test in some status: a callback, or nothing -/
def meaningIn (f : Forbidden) (s : Status) (w : Str × Value) : Option Callback :=
  if w.1 = c!"timeout" then some .timeout
  else if StartsWithInput f ∧ w.1 = c!"ready" ∧ s = .waitStart then some .start
  else if (∃ e ∈ eventsOf f, e.channel.kind = kIn) ∧ w.1 = c!"accept" ∧ s = .waitIn then some .accepted
  else ((eventsOf f).find? (fun e => e.channel.kind ≠ kIn ∧ e.channel.name = w.1)).map (fun e => .output e.channel w.2)

theorem animateStep_eq (hs : m.states = linearStates f name)
    (hd : ∀ e ∈ eventsOf f, ∀ e' ∈ eventsOf f, e.channel.kind ≠ kIn → e'.channel.kind ≠ kIn → e.channel.name = e'.channel.name →
      e.channel = e'.channel) (c : Config) (w : Str × Value) :
    animateStep m c w.1 w.2 = match meaningIn f c.status w with
      | some cb => step m c cb
      | none => c := by
  unfold animateStep meaningIn
  simp only [firstHasIn hs, hasIn hs]
  split
  · rfl
  · split
    · rfl
    · split
      · rfl
      · have h := find_out hs hd w.1
        cases h1 : (TransitionContext.make m).out.find? (fun a => a.channel.name = w.1) with
        | none =>
          rw [h1] at h
          cases h2 : (eventsOf f).find? (fun e => e.channel.kind ≠ kIn ∧ e.channel.name = w.1) with
          | none => rfl
          | some e => rw [h2] at h; cases h
        | some a =>
          rw [h1] at h
          cases h2 : (eventsOf f).find? (fun e => e.channel.kind ≠ kIn ∧ e.channel.name = w.1) with
          | none => rw [h2] at h; cases h
          | some e =>
            rw [h2] at h
            simp only [Option.map_some, Option.some.injEq] at h
            simp only [Option.map_some]
            rw [h]

/-- The status while the test goes on. -/
theorem status_ongoing (hs : m.states = linearStates f name) (ht : GoSet.values m.tests = [name]) (done : List Callback) :
    ((Harness.run m done).status.isRunning = true ↔ Ongoing f done) ∧
    (Ongoing f done → ((Harness.run m done).status = .waitStart ↔ NotStarted f done) ∧ ((Harness.run m done).status = .waitIn ↔ AwaitsInput f done)) := by
  have h := Harness.run_linear hs ht done
  have hst := Harness.reached_status f name _ (before_status f name done) _ (seen_no_start f done)
  rw [← h] at hst
  refine ⟨hst.2.1, fun ho => ?_⟩
  obtain ⟨hp, hne⟩ := ho
  have hlt : (done.filter (counts f)).length < (script f).length := by
    rcases Nat.lt_or_ge (done.filter (counts f)).length (script f).length with h | h
    · exact h
    · exact absurd (hp.eq_of_length (Nat.le_antisymm hp.length_le h)) hne
  have hpr : progress (script f) (done.filter (counts f)) = (done.filter (counts f)).length :=
    (progress_seen _ _).2 hp
  have he : (Harness.run m done).status = if progress (script f) (done.filter (counts f)) = 0 then (before f name done).status
      else (entered f name (progress (script f) (done.filter (counts f))) []).status := by
    rw [h]
    unfold reached
    simp only [List.drop_zero, Nat.zero_add]
    rw [hpr, List.getElem?_eq_none (Nat.le_refl _)]
  rw [he]
  have hk : progress (script f) (done.filter (counts f)) < (eventsOf f).length := by
    rw [hpr]
    unfold script at hlt
    rw [List.length_map] at hlt
    exact hlt
  unfold AwaitsInput NotStarted
  generalize progress (script f) (done.filter (counts f)) = k at *
  have hk' := List.getElem?_eq_getElem hk
  have hent : ∀ sent, (entered f name k sent).status = if (eventsOf f)[k].channel.kind = kIn then .waitIn else .waitOut := by
    intro sent
    unfold entered
    simp only [hk']
  rw [hk']
  simp only [Option.mem_def, Option.some.injEq, exists_eq_left']
  by_cases h0 : k = 0
  · subst h0
    rw [if_pos rfl]
    unfold before
    by_cases hb : StartsWithInput f ∧ ¬ Started f done
    · rw [if_pos hb]
      refine ⟨iff_of_true rfl ⟨hb.1, hb.2, rfl⟩, iff_of_false (by simp) fun h => h.1 ⟨hb.1, hb.2, rfl⟩⟩
    · rw [if_neg hb, hent]
      refine ⟨iff_of_false (by split <;> simp) fun h => hb ⟨h.1, h.2.1⟩, ?_⟩
      constructor
      · intro h
        refine ⟨fun h => hb ⟨h.1, h.2.1⟩, ?_⟩
        by_contra hn
        rw [if_neg hn] at h
        cases h
      · intro h
        rw [if_pos h.2]
  · rw [if_neg h0, hent]
    refine ⟨iff_of_false (by split <;> simp) fun h => h0 h.2.2, ?_⟩
    constructor
    · intro h
      refine ⟨fun h => h0 h.2.2, ?_⟩
      by_contra hn
      rw [if_neg hn] at h
      cases h
    · intro h
      rw [if_pos h.2]

theorem meaning_eq (hs : m.states = linearStates f name) (ht : GoSet.values m.tests = [name]) (done : List Callback) (ho : Ongoing f done)
    (w : Str × Value) : meaningIn f (Harness.run m done).status w = meaning f done w := by
  obtain ⟨h1, h2⟩ := (status_ongoing hs ht done).2 ho
  unfold meaningIn meaning
  simp only [h1, h2]
  have a : (StartsWithInput f ∧ w.1 = c!"ready" ∧ NotStarted f done) ↔ w.1 = c!"ready" ∧ NotStarted f done :=
    ⟨fun h => h.2, fun h => ⟨h.2.1, h⟩⟩
  have b : ((∃ e ∈ eventsOf f, e.channel.kind = kIn) ∧ w.1 = c!"accept" ∧ AwaitsInput f done) ↔ w.1 = c!"accept" ∧ AwaitsInput f done := by
    refine ⟨fun h => h.2, fun h => ⟨?_, h⟩⟩
    obtain ⟨_, _, e, he, hk⟩ := h
    exact ⟨e, List.mem_of_getElem? he, hk⟩
  simp only [a, b]

theorem run_snoc (m : Stm) (done : List Callback) (cb : Callback) (h : (Harness.run m done).status.isRunning = true) :
    Harness.run m (done ++ [cb]) = step m (Harness.run m done) cb := by
  unfold Harness.run at h ⊢
  rw [List.foldl_append, List.foldl_cons, List.foldl_nil]
  exact if_pos h

/-- One typed word. -/
theorem animate_one (hs : m.states = linearStates f name) (ht : GoSet.values m.tests = [name])
    (hd : ∀ e ∈ eventsOf f, ∀ e' ∈ eventsOf f, e.channel.kind ≠ kIn → e'.channel.kind ≠ kIn → e.channel.name = e'.channel.name →
      e.channel = e'.channel) (done : List Callback) (ho : Ongoing f done) (w : Str × Value) :
    animateStep m (Harness.run m done) w.1 w.2 = Harness.run m (done ++ (meaning f done w).toList) := by
  rw [animateStep_eq hs hd, meaning_eq hs ht done ho]
  cases meaning f done w with
  | none => simp
  | some cb => exact (run_snoc m done cb ((status_ongoing hs ht done).1.2 ho)).symm

theorem run_ended_meanings (hs : m.states = linearStates f name) (ht : GoSet.values m.tests = [name]) (ws : List (Str × Value))
    (done : List Callback) (h : (Harness.run m done).status.isRunning = false) : Harness.run m (meanings f done ws) = Harness.run m done := by
  induction ws generalizing done with
  | nil => rfl
  | cons w ws ih =>
    rw [meanings, ih _ (by rw [C60_run m done _ h]; exact h), C60_run m done _ h]

theorem animate_run (hs : m.states = linearStates f name) (ht : GoSet.values m.tests = [name])
    (hd : ∀ e ∈ eventsOf f, ∀ e' ∈ eventsOf f, e.channel.kind ≠ kIn → e'.channel.kind ≠ kIn → e.channel.name = e'.channel.name →
      e.channel = e'.channel) (ws : List (Str × Value)) : animate m ws = Harness.run m (meanings f [] ws) := by
  have key : ∀ ws done, ws.foldl (fun c w => if c.status.isRunning then animateStep m c w.1 w.2 else c) (Harness.run m done) =
      Harness.run m (meanings f done ws) := by
    intro ws
    induction ws with
    | nil => intro done; rfl
    | cons w ws ih =>
      intro done
      rw [List.foldl_cons]
      by_cases hr : (Harness.run m done).status.isRunning = true
      · rw [if_pos hr, animate_one hs ht hd done ((status_ongoing hs ht done).1.1 hr) w, ih]
        rfl
      · rw [if_neg hr, ih, run_ended_meanings hs ht _ _ (by simpa using hr), run_ended_meanings hs ht _ _ (by simpa using hr)]
  exact key ws []

/-- What is typed. -/
theorem typed_eq (hs : m.states = linearStates f name) (ht : GoSet.values m.tests = [name])
    (hd : ∀ e ∈ eventsOf f, ∀ e' ∈ eventsOf f, e.channel.kind ≠ kIn → e'.channel.kind ≠ kIn → e.channel.name = e'.channel.name →
      e.channel = e'.channel) (ws : List (Str × Value)) : typed m (construct m) ws = typing f [] ws := by
  have hone : ∀ c w, typedOne m c w = match meaningIn f c.status w with
      | some (.output _ x) => [w.1, x.stringValue]
      | _ => [w.1] := by
    intro c w
    have h := find_out hs hd w.1
    have hany : (TransitionContext.make m).out.any (fun a => a.channel.name = w.1) =
        ((eventsOf f).find? (fun e => e.channel.kind ≠ kIn ∧ e.channel.name = w.1)).isSome := by
      have := congrArg Option.isSome h
      rw [Option.isSome_map, Option.isSome_map] at this
      rw [← this, Bool.eq_iff_iff, List.find?_isSome, List.any_eq_true]
    unfold typedOne isCommand meaningIn
    rw [hany]
    by_cases h1 : w.1 = c!"timeout"
    · simp [h1]
    by_cases h2 : StartsWithInput f ∧ w.1 = c!"ready" ∧ c.status = .waitStart
    · have := (firstHasIn hs).2 h2.1
      rw [if_neg h1, if_pos h2]
      simp [this, h2.2.1, h2.2.2]
    by_cases h3 : (∃ e ∈ eventsOf f, e.channel.kind = kIn) ∧ w.1 = c!"accept" ∧ c.status = .waitIn
    · have := (hasIn hs).2 h3.1
      rw [if_neg h1, if_neg h2, if_pos h3]
      simp [this, h3.2.1, h3.2.2]
    rw [if_neg h1, if_neg h2, if_neg h3, if_neg]
    · cases (eventsOf f).find? (fun e => e.channel.kind ≠ kIn ∧ e.channel.name = w.1) <;> rfl
    · simp only [Bool.or_eq_true, Bool.and_eq_true, decide_eq_true_eq, firstHasIn hs, hasIn hs]
      rintro ((h | h) | h)
      · exact h1 h
      · exact h2 h
      · exact h3 h
  have key : ∀ ws done, typed m (Harness.run m done) ws = typing f done ws := by
    intro ws
    induction ws with
    | nil => intro done; rfl
    | cons w ws ih =>
      intro done
      rw [typed, typing]
      by_cases hr : (Harness.run m done).status.isRunning = true
      · have ho := (status_ongoing hs ht done).1.1 hr
        rw [if_pos hr, if_pos ho, animate_one hs ht hd done ho w, ih, hone, meaning_eq hs ht done ho]
        rfl
      · rw [if_neg hr, if_neg (fun ho => hr ((status_ongoing hs ht done).1.2 ho))]
  exact key ws []

theorem ongoing_no {f : Forbidden} {done : List Callback} (ho : done.filter (counts f) <+: script f) (cb : Callback) :
    ¬ Deviates (script f) (done.filter (counts f)) cb := by
  rintro ⟨pre, rest, h1, _, _, h4⟩
  refine h4 (List.IsPrefix.trans ⟨rest, ?_⟩ ho)
  rw [h1]
  simp

/-- Accepting an input that was not sent means nothing, so it is never out of place. -/
theorem no_deviation {f : Forbidden} {done : List Callback} (ho : Ongoing f done) (w : Str × Value) :
    ¬ Deviates (script f) ((done ++ (meaning f done w).toList).filter (counts f)) .accepted := by
  rw [List.filter_append]
  rintro ⟨pre, rest, h1, h2, h3, h4⟩
  by_cases hlt : pre.length < (done.filter (counts f)).length
  · refine h4 (List.IsPrefix.trans ?_ ho.1)
    refine List.prefix_of_prefix_length_le (l₃ := pre ++ .accepted :: rest) ⟨rest, by simp⟩ ⟨_, h1⟩ (by simp; omega)
  · obtain ⟨t, rfl⟩ : done.filter (counts f) <+: pre :=
      List.prefix_of_prefix_length_le (l₃ := pre ++ .accepted :: rest) ⟨_, h1⟩ (List.prefix_append ..) (by omega)
    rw [List.append_assoc, List.append_cancel_left_eq] at h1
    cases hm : meaning f done w with
    | none => rw [hm] at h1; simp at h1
    | some cb =>
      rw [hm, Option.toList_some] at h1
      have hle := List.length_filter_le (counts f) [cb]
      rw [h1] at hle
      have ht : t = [] := by
        cases t with
        | nil => rfl
        | cons a l => simp at hle
      subst ht
      have hcb : cb = .accepted := by
        have : Callback.accepted ∈ [cb].filter (counts f) := by rw [h1]; simp
        exact (List.mem_singleton.1 (List.mem_filter.1 this).1).symm
      subst hcb
      have haw : AwaitsInput f done := by
        unfold meaning at hm
        split at hm
        · cases hm
        · split at hm
          · cases hm
          · split at hm
            · rename_i h; exact h.2
            · cases hx : (eventsOf f).find? (fun e => e.channel.kind ≠ kIn ∧ e.channel.name = w.1) with
              | none => rw [hx] at hm; cases hm
              | some e => rw [hx] at hm; cases hm
      obtain ⟨_, e, he, hk⟩ := haw
      rw [(progress_seen _ _).2 ho.1] at he
      refine h4 ?_
      rw [List.append_nil]
      have hs : (script f)[(done.filter (counts f)).length]? = some .accepted := by
        unfold script
        rw [List.getElem?_map, he]
        unfold observed
        simp [hk]
      obtain ⟨r, hr⟩ := ho.1
      rw [← hr] at hs ⊢
      rw [List.getElem?_append_right (Nat.le_refl _), Nat.sub_self] at hs
      cases r with
      | nil => cases hs
      | cons a l =>
        cases hs
        exact ⟨l, by simp⟩

theorem not_bug (h : BuiltFor f name m) (ws : List (Str × Value)) (done : List Callback) (hd : (Harness.run m done).status ≠ .bug) :
    (Harness.run m (meanings f done ws)).status ≠ .bug := by
  induction ws generalizing done with
  | nil => exact hd
  | cons w ws ih =>
    rw [meanings]
    refine ih _ ?_
    by_cases hr : (Harness.run m done).status.isRunning = true
    · rw [Ne, (C58_endings f name m h _).2.2.1]
      exact no_deviation ((C58_endings f name m h done).1.1 hr) w
    · rw [C60_run m done _ (by simpa using hr)]
      exact hd

end Trace

end Cpp

end Spec

end Rtcg
