import Verif.Spec.CppSuite
import Verif.Proofs.CppTrace
import Verif.Proofs.HarnessSame
import Verif.Props.JsonText

/-
The test of a tree: names, libraries, callbacks.
-/

namespace Rtcg

namespace Spec

namespace Cpp

namespace Suite

open Templates Rtcg.Cpp Harness

/-- A machine of a suite, and the same as it was built from a tree. -/
structure Same (root : Node) (m₀ m : Stm) : Prop where
  built : BuiltFrom root m₀
  same : SameStm m₀ m
  maps : ∀ s ∈ m.states, GoMap.WF s.verdict
  maps₀ : ∀ s ∈ m₀.states, GoMap.WF s.verdict

theorem made_same {ts : GoMap Str Validate.Test} {r : StmSuite} (h : MadeFrom ts r) (hno : ∀ nt ∈ ts, NoIds nt.2.root) {name : Str} {m : Stm}
    (hm : (name, m) ∈ r.tests) : ∃ t m₀, (name, t) ∈ ts ∧ Same t.root m₀ m := by
  obtain ⟨hwf, hv, ⟨b, b', r₀, hb, hty, hsame⟩, w1, w2, w3⟩ := h
  have hg := hsame name
  rw [GoMap.get?_of_mem w2 hm] at hg
  cases hr : GoMap.get? r₀.tests name with
  | none => rw [hr] at hg; cases hg
  | some m₀ =>
  rw [hr] at hg
  cases hg with
  | some hss =>
  obtain ⟨t, b₁, t', ht, hbt⟩ := suite_machine hwf hv hb (GoMap.mem_of_get? hr)
  have hbf : BuiltFrom t.root m₀ := ⟨hno _ ht, Builder.zero, t, b₁, t', hv _ ht, hbt⟩
  refine ⟨t, m₀, ht, hbf, hss, (w3 name m hm).1, ?_⟩
  intro s hs
  obtain ⟨p, n, _, _, rfl⟩ := (mem_states (builtFrom_machineOf hbf)).1 hs
  exact pureState_verdict_wf n

variable {U : Unicode} {v : Variant} {root : Node} {name : Str} {m₀ m : Stm}

theorem sets (h : Same root m₀ m) {s : State} (hs : s ∈ m.states) {x : TSet} (hx : x ∈ s.transitionSets) :
    (∃ e ∈ treeEvents root, e.channel = x.channel) ∧ ∀ t ∈ x.transitions, ∃ e ∈ treeEvents root, e.channel = x.channel ∧ e.value = t.value := by
  obtain ⟨s₀, hs₀, hss⟩ := sameState_mem h.same.1 s hs
  rw [← hss.2.1] at hx
  have hT := builtFrom_machineOf h.built
  obtain ⟨p, n, hn, ho, rfl⟩ := (mem_states hT).1 hs₀
  have key : ∀ t ∈ x.transitions, ∃ e ∈ treeEvents root, e.channel = x.channel ∧ e.value = t.value := by
    intro t ht
    obtain ⟨i, k, e, hi, hko, he, hch, hte⟩ := mem_branches_child hT hn ((mem_pureState n x.channel t).1 ⟨x, hx, rfl, ht⟩)
    exact ⟨e, (mem_treeEvents_labelled root e).1 (mem_treeEvents.2 ⟨p ++ [i], k, (child_ok hT hn hi).1, he⟩), hch.symm, by rw [hte]⟩
  obtain ⟨t, ht⟩ := set_nonempty n hx
  obtain ⟨e, he, hch, _⟩ := key t ht
  exact ⟨⟨e, he, hch⟩, key⟩

theorem uses' (h : Same root m₀ m) (P : Channel → Prop) :
    (∃ s ∈ m.states, ∃ x ∈ s.transitionSets, P x.channel) ↔ ∃ e ∈ treeEvents root, P e.channel := by
  have hT := builtFrom_machineOf h.built
  constructor
  · rintro ⟨s, hs, x, hx, hp⟩
    obtain ⟨⟨e, he, hc⟩, _⟩ := sets h hs hx
    exact ⟨e, he, hc ▸ hp⟩
  · rintro ⟨e, he, hp⟩
    obtain ⟨s, hs, x, hx, hp⟩ := (machine_uses hT P).2 ⟨e, (mem_treeEvents_labelled root e).2 he, hp⟩
    obtain ⟨s', hs', hss⟩ := sameState_mem' h.same.1 s hs
    exact ⟨s', hs', x, hss.2.1 ▸ hx, hp⟩

theorem uses (h : Same root m₀ m) {c : Channel} : UsesChannel m c ↔ ∃ e ∈ treeEvents root, e.channel = c := uses' h (· = c)

theorem tests (h : Same root m₀ m) (t : Str) : t ∈ GoSet.values m.tests ↔ TestOf root t := by
  obtain ⟨_, b, t', b', t'', hv, hb⟩ := h.built
  rw [← h.same.2.2.mem_iff]
  exact (C33_tests _ _ _ _ _ _ hv hb).2.1 t

theorem firstHasIn (h : Same root m₀ m) : (TransitionContext.make m).firstStateHasIn = true ↔ RootInput root := by
  rw [← same_context h.same.1]
  exact (first_iff (builtFrom_machineOf h.built)).trans (rootInput_writeIds root [])

theorem first_input (h : Same root m₀ m) : FirstSendsInput m ↔ RootInput root := (C39_firstStateHasIn m).symm.trans (firstHasIn h)

theorem wellNamed (hU : U.AsciiOK) {ts : GoMap Str Validate.Test} {r : StmSuite} (hmade : MadeFrom ts r) (hno : ∀ nt ∈ ts, NoIds nt.2.root)
    (hm : (name, m) ∈ r.tests) (hs : Same root m₀ m) (hn : TreeNames U v root) :
    WellNamed U v m := by
  have hdo : DistinctBy id m IsOut := by
    rintro c c' h1 h2 h3 h4 h5
    obtain ⟨e, he, rfl⟩ := (uses hs).1 h1
    obtain ⟨e', he', rfl⟩ := (uses hs).1 h2
    exact hn.distinct e he e' he' h3 h4 h5
  have hout : ∀ n, n ∈ [c!"timeout", c!"initialDelay", c!"inputAccepted"] → ¬ HasOut m n := by
    rintro n hn' ⟨c, h1, h2, rfl⟩
    obtain ⟨e, he, rfl⟩ := (uses hs).1 h1
    exact hn.outputs e he h2 hn'
  refine ⟨?_, ?_, ?_, ?_, ?_, ?_, ?_⟩
  · intro s h x hx
    obtain ⟨⟨e, he, h1⟩, _⟩ := sets hs h hx
    rw [← h1]
    exact (hn.words e he).1
  · intro s h x hx t ht
    obtain ⟨e, he, h1, h2⟩ := (sets hs h hx).2 t ht
    rw [← h2]
    exact (hn.words e he).2
  · intro t h
    exact (hn.tests t ((tests hs t).1 h)).1
  · rw [C75_members_partial ts r hmade hno U hU v name m hm]
    refine ⟨hdo, hout _ (by decide), fun h => hout _ (by decide) h.2, fun h => hout _ (by decide) h.2, ?_⟩
    intro hv c c' h1 h2 h3 h4 h5
    obtain ⟨e, he, rfl⟩ := (uses hs).1 h1
    obtain ⟨e', he', rfl⟩ := (uses hs).1 h2
    exact (hn.topics hv e he).1 e' he' ⟨fun _ => h4, fun _ => h3⟩ h5
  · rw [C76_verdict_members_partial ts r hmade name m hm]
    refine ⟨?_, ?_, ?_⟩
    · intro h; exact (hn.tests _ ((tests hs _).1 h)).2.1 rfl
    · intro h; exact (hn.tests _ ((tests hs _).1 h)).2.2.1 rfl
    · intro t h1 h2
      exact (hn.tests t ((tests hs t).1 h1)).2.2.2 ((tests hs _).1 h2)
  · intro s h1 x hx
    obtain ⟨⟨e, he, hxe⟩, _⟩ := sets hs h1 hx
    rw [← hxe]
    have key : ∀ g ∈ [convertTo U e.channel.name, convertFrom U e.channel.name], g ∉ classMembers U v m := by
      intro g hg hmem
      obtain ⟨hfst, hsnd⟩ : (∃ c, g.head? = some c ∧ (c = 't' ∨ c = 'f')) ∧ ∀ c, g.head? = some 't' → g[1]? = some c → c = 'o' := by
        rcases List.mem_cons.1 hg with rfl | hg
        · exact ⟨⟨'t', rfl, .inl rfl⟩, fun c _ h => by cases h; rfl⟩
        · rw [List.mem_singleton.1 hg]
          exact ⟨⟨'f', rfl, .inr rfl⟩, fun c h => by cases h⟩
      have hfixed : ∀ w : Str, (∃ c, w.head? = some c ∧ c ≠ 't' ∧ c ≠ 'f') → g ≠ w := by
        rintro w ⟨c, h2, h3, h4⟩ rfl
        obtain ⟨d, h5, h6⟩ := hfst
        rw [h5] at h2
        cases h2
        rcases h6 with rfl | rfl
        · exact h3 rfl
        · exact h4 rfl
      have hto : g ≠ c!"timeoutCallback" := by
        rintro rfl
        exact absurd (hsnd 'i' rfl rfl) (by decide)
      unfold classMembers at hmem
      simp only [List.mem_append, List.mem_cons, List.not_mem_nil, or_false] at hmem
      rcases hmem with ((((((hmem | hmem) | hmem) | hmem) | hmem) | hmem) | hmem) | hmem
      · rcases hmem with rfl | rfl
        · exact hfixed c!"getVerdict" ⟨'g', rfl, by decide, by decide⟩ rfl
        · exact hto rfl
      · split at hmem
        · exact hfixed _ ⟨'i', rfl, by decide, by decide⟩ (List.mem_singleton.1 hmem)
        · cases hmem
      · split at hmem
        · exact hfixed _ ⟨'i', rfl, by decide, by decide⟩ (List.mem_singleton.1 hmem)
        · cases hmem
      · obtain ⟨a, ha, rfl⟩ := List.mem_map.1 hmem
        rw [(C39_partition m).2.2.2, List.mem_filter] at ha
        obtain ⟨s', h3, x', h4, h5⟩ := Good.agg_channel ha.1
        obtain ⟨e', he', h6⟩ := (uses hs).1 ⟨s', h3, x', h4, h5⟩
        rw [← h6] at hg hmem
        exact (hn.convert e he e' he' _ hg).1 rfl
      · rcases hmem with rfl | rfl
        · exact hfixed c!"verdict_" ⟨'v', rfl, by decide, by decide⟩ rfl
        · exact hfixed c!"state_" ⟨'s', rfl, by decide, by decide⟩ rfl
      · unfold stmFields at hmem
        split at hmem
        · rename_i hv
          obtain ⟨a, ha, rfl⟩ := List.mem_map.1 hmem
          rw [(C39_partition m).2.2.1, List.mem_filter] at ha
          obtain ⟨s', h3, x', h4, h5⟩ := Good.agg_channel ha.1
          obtain ⟨e', he', h6⟩ := (uses hs).1 ⟨s', h3, x', h4, h5⟩
          rw [← h6] at hg hmem
          exact (hn.convert e he e' he' _ hg).2 hv rfl
        · cases hmem
      · obtain ⟨s', hs', rfl⟩ := List.mem_map.1 hmem
        exact hfixed _ ⟨'e', rfl, by decide, by decide⟩ rfl
      · rcases hmem with rfl | rfl
        · exact hfixed c!"stateName" ⟨'s', rfl, by decide, by decide⟩ rfl
        · exact hfixed c!"end" ⟨'e', rfl, by decide, by decide⟩ rfl
    exact ⟨key _ (by simp), key _ (by simp)⟩
  · intro hv
    rw [C78_locals_partial]
    refine ⟨?_, ?_, ?_⟩
    · intro c c' h1 h2 h3 h4 h5
      obtain ⟨e, he, rfl⟩ := (uses hs).1 h1
      obtain ⟨e', he', rfl⟩ := (uses hs).1 h2
      exact (hn.topics hv e he).1 e' he' ⟨fun _ => h4, fun _ => h3⟩ h5
    · intro c c' h1 h2 h3 h4 h5
      obtain ⟨e, he, rfl⟩ := (uses hs).1 h1
      obtain ⟨e', he', rfl⟩ := (uses hs).1 h2
      exact (hn.topics hv e he).1 e' he' ⟨fun h => absurd h h3, fun h => absurd h h4⟩ h5
    · rintro ⟨_, c, h1, h2, h3⟩
      obtain ⟨e, he, rfl⟩ := (uses hs).1 h1
      exact (hn.topics hv e he).2 h2 h3

theorem provides {L : Lib} (hs : Same root m₀ m) (hL : TreeLib L U v root) : Provides L U v m := by
  refine ⟨hL.std, ?_, fun hv => ⟨(hL.ros hv).1, (hL.ros hv).2.1, ?_⟩⟩
  · intro s h x hx
    obtain ⟨⟨e, he, h1⟩, _⟩ := sets hs h hx
    rw [← h1]
    exact hL.convert e he
  · intro s h x hx
    obtain ⟨⟨e, he, h1⟩, _⟩ := sets hs h hx
    rw [← h1]
    exact (hL.ros hv).2.2 e he

theorem hasCallback (hs : Same root m₀ m) {cb : Callback} (h : TreeCallback root cb) : HasCallback m cb := by
  cases cb with
  | timeout => trivial
  | start => exact (first_input hs).2 h
  | accepted => exact (uses' hs (fun c => c.kind = kIn)).2 h
  | output c x =>
    obtain ⟨h1, h2, h3, h4⟩ := h
    refine ⟨(uses hs).2 h1, h2, h3, ?_⟩
    intro s hs' y hy hc t ht
    obtain ⟨e, he, h5, h6⟩ := (sets hs hs' hy).2 t ht
    rw [← h6]
    exact h4 e he (h5.trans hc)

theorem said (U : Unicode) (v : Variant) (name : Str) (tests : List Str) (c : Config) :
    report U v name tests c = outcomesSaid U v name c.status (tests.map fun t => (t, (GoMap.get? c.verdict t).getD Outcome.unset)) := by
  unfold report outcomesSaid
  rw [List.map_map]
  rfl

end Suite

end Cpp

end Spec

end Rtcg
