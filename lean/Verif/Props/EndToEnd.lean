import Verif.Props.Json
import Verif.Props.Harness
import Verif.Props.Fs

/-
C72: the three programs joined end to end.
-/

namespace Rtcg

open Spec

namespace Json

/-! ### every map read from JSON has distinct keys -/

theorem decodeElems_forall {α : Type} {dec : Json → Res α} {P : α → Prop} (hP : ∀ j a, dec j = .ok a → P a) :
    ∀ (js : List Json) (as : List α), decodeElems dec js = .ok as → ∀ a ∈ as, P a
  | [], as, h => by simp only [decodeElems, Except.ok.injEq] at h; subst h; simp
  | j :: js, as, h => by
    simp only [decodeElems] at h
    cases hj : dec j with
    | error f => rw [hj] at h; cases h
    | ok a =>
      rw [hj] at h
      simp only at h
      cases hs : decodeElems dec js with
      | error f => rw [hs] at h; cases h
      | ok as' =>
        rw [hs] at h
        simp only [Except.ok.injEq] at h
        subst h
        simp only [List.mem_cons, forall_eq_or_imp]
        exact ⟨hP j a hj, decodeElems_forall hP js as' hs⟩

theorem decodeList_forall {α : Type} {dec : Json → Res α} {P : α → Prop} (hP : ∀ j a, dec j = .ok a → P a) (j : Json) (as : List α)
    (h : decodeList dec j = .ok as) : ∀ a ∈ as, P a := by
  cases j with
  | null => simp only [decodeList, Except.ok.injEq] at h; subst h; simp
  | arr xs => exact decodeElems_forall hP xs as h
  | _ => simp [decodeList, throwErr] at h

theorem decodeFields_inv {σ : Type} {dec : σ → Str → Json → Res σ} {P : σ → Prop}
    (hP : ∀ s k j s', P s → dec s k j = .ok s' → P s') :
    ∀ (fs : List (Str × Json)) (s s' : σ), P s → decodeFields dec s fs = .ok s' → P s'
  | [], s, s', h0, h => by simp only [decodeFields, Except.ok.injEq] at h; exact h ▸ h0
  | (k, j) :: fs, s, s', h0, h => by
    simp only [decodeFields] at h
    cases hj : dec s k j with
    | error f => rw [hj] at h; cases h
    | ok s₁ => rw [hj] at h; exact decodeFields_inv hP fs s₁ s' (hP _ _ _ _ h0 hj) h

theorem decodeEntries_forall {α : Type} {dec : Json → Res α} {P : α → Prop} (hP : ∀ j a, dec j = .ok a → P a) :
    ∀ (fs : List (Str × Json)) (acc m : GoMap Str α), (∀ k a, (k, a) ∈ acc → P a) → decodeEntries dec acc fs = .ok m → ∀ k a, (k, a) ∈ m → P a
  | [], acc, m, h0, h => by simp only [decodeEntries, Except.ok.injEq] at h; exact h ▸ h0
  | (k, j) :: fs, acc, m, h0, h => by
    simp only [decodeEntries] at h
    cases hj : dec j with
    | error f => rw [hj] at h; cases h
    | ok a =>
      rw [hj] at h
      refine decodeEntries_forall hP fs _ m ?_ h
      intro k' a' hm
      rcases mem_set hm with hm | hm
      · exact h0 _ _ hm
      · cases hm; exact hP j _ hj

theorem decodeMap_forall {α : Type} {dec : Json → Res α} {P : α → Prop} (hP : ∀ j a, dec j = .ok a → P a) {j : Json} {m : GoMap Str α}
    (h : decodeMap dec j = .ok m) : ∀ k a, (k, a) ∈ m → P a := by
  cases j with
  | null => simp only [decodeMap, Except.ok.injEq] at h; subst h; simp
  | obj fs => exact decodeEntries_forall hP fs [] m (by simp) h
  | _ => simp [decodeMap, throwErr] at h

theorem decodeVerdictLoop_wf : ∀ (m : GoMap Str Str) (v v' : Verdict), GoMap.WF v → decodeVerdictLoop v m = .ok v' → GoMap.WF v'
  | [], v, v', h0, h => by simp only [decodeVerdictLoop, Except.ok.injEq] at h; exact h ▸ h0
  | (k, s) :: m, v, v', h0, h => by
    simp only [decodeVerdictLoop] at h
    cases hs : Outcome.parse s with
    | error f => rw [hs] at h; cases h
    | ok o => rw [hs] at h; exact decodeVerdictLoop_wf m _ v' (GoMap.wf_set h0 k o) h

theorem decodeVerdict_wf {j : Json} {v : Verdict} (h : decodeVerdict j = .ok v) : GoMap.WF v := by
  unfold decodeVerdict at h
  cases hm : decodeMap (decodeStr []) j with
  | error f => rw [hm] at h; cases h
  | ok m => rw [hm] at h; exact decodeVerdictLoop_wf m [] v GoMap.wf_nil h

theorem decodeState_wf (j : Json) (s : State) (h : decodeState j = .ok s) : GoMap.WF s.verdict := by
  cases j with
  | obj fs =>
    refine decodeFields_inv (P := fun s => GoMap.WF s.verdict) ?_ fs _ s GoMap.wf_nil h
    intro s k j s' h0 h
    unfold decodeStateField at h
    split at h
    · obtain ⟨x, _, rfl⟩ := map_ok h; exact h0
    · split at h
      · obtain ⟨x, _, rfl⟩ := map_ok h; exact h0
      · split at h
        · obtain ⟨x, hx, rfl⟩ := map_ok h; exact decodeVerdict_wf hx
        · cases h; exact h0
  | null => cases h; exact GoMap.wf_nil
  | _ => simp [decodeState, throwErr] at h

theorem decodeStm_maps (j : Json) (m : Stm) (h : decodeStm j = .ok m) : StmMaps m := by
  cases j with
  | obj fs =>
    refine decodeFields_inv (P := StmMaps) ?_ fs _ m ⟨by simp, GoMap.wf_nil, GoMap.wf_nil⟩ h
    intro s k j s' h0 h
    unfold decodeStmField at h
    split at h
    · obtain ⟨x, hx, rfl⟩ := map_ok h
      exact ⟨decodeList_forall decodeState_wf j x hx, h0.2⟩
    · split at h
      · obtain ⟨x, hx, rfl⟩ := map_ok h
        exact ⟨h0.1, decodeMap_wf hx, h0.2.2⟩
      · split at h
        · obtain ⟨x, hx, rfl⟩ := map_ok h
          refine ⟨h0.1, h0.2.1, ?_⟩
          unfold decodeSet at hx
          obtain ⟨vs, _, rfl⟩ := map_ok hx
          exact (goSet_add_facts [] GoMap.wf_nil (by simp) _).1
        · cases h; exact h0
  | null => cases h; exact ⟨by simp, GoMap.wf_nil, GoMap.wf_nil⟩
  | _ => simp [decodeStm, throwErr] at h

/-- Every map of a suite of machines read from JSON has distinct keys. -/
theorem decodeStmSuite_maps {j : Json} {s : StmSuite} (h : decodeStmSuite j = .ok s) :
    GoMap.WF s.types ∧ GoMap.WF s.tests ∧ ∀ k m, (k, m) ∈ s.tests → StmMaps m := by
  have key : ∀ fs, decodeFields decodeStmSuiteField ⟨[], []⟩ fs = .ok s →
      GoMap.WF s.types ∧ GoMap.WF s.tests ∧ ∀ k m, (k, m) ∈ s.tests → StmMaps m := by
    intro fs hfs
    refine decodeFields_inv (P := fun s => GoMap.WF s.types ∧ GoMap.WF s.tests ∧ ∀ k m, (k, m) ∈ s.tests → StmMaps m) ?_ fs ⟨[], []⟩ s
      ⟨GoMap.wf_nil, GoMap.wf_nil, fun _ _ h => by cases h⟩ hfs
    intro s k j s' h0 h
    unfold decodeStmSuiteField at h
    split at h
    · obtain ⟨x, hx, rfl⟩ := map_ok h
      exact ⟨decodeMap_wf hx, h0.2⟩
    · split at h
      · obtain ⟨x, hx, rfl⟩ := map_ok h
        exact ⟨h0.1, decodeMap_wf hx, decodeMap_forall decodeStm_maps hx⟩
      · cases h; exact h0
  unfold decodeStmSuite decodeStruct at h
  split at h
  · simp only [Except.ok.injEq] at h; subst h; exact ⟨GoMap.wf_nil, GoMap.wf_nil, by simp⟩
  · exact key _ h
  · simp [throwErr] at h

end Json

/-! ### the machines of a traces file -/

theorem sameState_linear {f : Forbidden} {name : Str} {ss : List State} (h : List.Forall₂ SameState (linearStates f name) ss)
    (hwf : ∀ s ∈ ss, GoMap.WF s.verdict) : ss = linearStates f name := by
  have key : ∀ (ks : List Nat) (ss : List State), List.Forall₂ SameState (ks.map (linearState f name)) ss →
      (∀ s ∈ ss, GoMap.WF s.verdict) → ss = ks.map (linearState f name) := by
    intro ks
    induction ks with
    | nil => intro ss h _; cases h; rfl
    | cons k ks ih =>
      intro ss h hwf
      rw [List.map_cons] at h ⊢
      cases h with
      | @cons _ s _ ss' hs hss =>
        rw [ih ss' hss fun s hs => hwf s (List.mem_cons_of_mem _ hs)]
        congr 1
        obtain ⟨h1, h2, h3⟩ := hs
        have hw := hwf s (by simp)
        have hv : s.verdict = (linearState f name k).verdict := by
          have hp := GoMap.perm_of_equiv (m := [(name, verdictAt f.pre.length k)]) (by simp [GoMap.WF]) hw h3
          exact (List.perm_singleton.1 hp.symm)
        cases s
        simp only at h1 h2 hv
        subst h1 h2 hv
        rfl
  exact key _ _ h hwf

/-- Every test name made from traces whose own names are plain (or missing) is a plain path component. -/
theorem nameAll_plain {traces : List Forbidden} {named : GoMap Str Forbidden} (h : Forbidden.nameAll traces = some named)
    (hp : ∀ f ∈ traces, f.name = [] ∨ Plain f.name) : ∀ kf ∈ named, Plain kf.1 := by
  obtain ⟨names, hl, hna, _, _, hff⟩ := nameAll_spec traces
  rw [hna, Option.some.injEq] at h
  subst h
  rintro ⟨k, f⟩ hkf
  obtain ⟨i, hi, he⟩ := List.getElem_of_mem hkf
  rw [List.getElem_zip, Prod.mk.injEq] at he
  obtain ⟨j, hj, _⟩ := hff i (by simp at hi; omega) (by simp at hi; omega)
  simp only
  rw [← he.1, hj, he.2]
  have hf := hp f (List.of_mem_zip hkf).2
  have plain_num : ∀ (w : Str) (n : Nat), '/' ∉ w → Plain (w ++ decNat n) := by
    intro w n hw
    have hd := decNat_digits n
    have hnum : ∀ c : Char, ¬ ('0' ≤ c ∧ c ≤ '9') → c ∉ decNat n := fun c hc hm => hc (hd c hm)
    have hdot : ∀ x : Str, x.getLast? = some '.' → w ++ decNat n ≠ x := by
      intro x hx e
      have h2 := decNat_ne_nil n
      rw [← e, List.getLast?_append_of_ne_nil _ h2] at hx
      exact hnum '.' (by decide) (List.mem_of_getLast? hx)
    refine ⟨?_, ?_, hdot _ rfl, hdot _ rfl⟩
    · intro e; exact decNat_ne_nil n (List.append_eq_nil_iff.1 e).2
    · intro hm
      rcases List.mem_append.1 hm with hm | hm
      · exact hw hm
      · exact hnum '/' (by decide) hm
  unfold candidate
  split
  · exact plain_num _ _ (by decide)
  · rename_i hne
    have hfp : Plain f.name := hf.resolve_left fun h => hne (.inl h)
    split
    · exact hfp
    · exact plain_num _ _ hfp.2.1

/-! ### C72 -/

/-- C72: run on a traces file whose events all have a named channel and a value, with consistent types and plain test names, the three
programs make, for every trace and every C++ variant, a main.cpp whose program, when driven by any callbacks, ends with exit code 1
exactly when the callbacks that count begin with the whole trace, forbidden event included; while running or having ended otherwise it
has recorded the verdict fail in no other case.  The maps of the suite read by the generator may come in any order. -/
theorem C72_end_to_end (file : Str) (traces : List Forbidden) (h : Forbidden.read file = some (.ok traces))
    (hev : ∀ f ∈ traces, ∀ e ∈ eventsOf f, e.channel.name ≠ [] ∧ e.value ≠ .none)
    (hty : ¬ ∃ chan, Conflict (fun ty => ∃ f ∈ traces, TraceCarries f chan ty))
    (hpl : ∀ f ∈ traces, f.name = [] ∨ Plain f.name) :
    ∃ tests stms suite named, readTracesProgram file = .ok tests ∧ makeStmsProgram tests = .ok stms ∧
      Json.decodeStmSuite stms = .ok suite ∧ Forbidden.nameAll traces = some named ∧
      ∀ suite' : StmSuite, suite'.tests.Perm suite.tests → suite'.types.Perm suite.types →
      ∀ cwd fs fs' cfg out, (cfg.cpps.map (·.variant)).Nodup → Gen.run cwd fs (Gen.ops cfg out suite') = (fs', .ok ()) →
      ∀ name f, (name, f) ∈ named → ∀ c ∈ cfg.cpps, ∃ m tc ctx,
        fs'.file (locate cwd out ++ [c.variant.string, c!"src", name, c!"src", c!"main.cpp"]) = some (.mainCpp c.variant name m tc ctx) ∧
        ∀ cbs, (Harness.exitCode (Harness.run m cbs) = 1 ↔ script f <+: cbs.filter (counts f)) ∧
          (GoMap.get? (Harness.run m cbs).verdict name = some oFail ↔ script f <+: cbs.filter (counts f)) := by
  obtain ⟨j, out, suite, named, h1, h2, h3, h4, h5, h6, h7⟩ := C57_pipeline file traces h hev hty
  refine ⟨j, out, suite, named, h1, h2, h3, h4, ?_⟩
  intro suite' hpt hpty cwd fs fs' cfg o hv hrun name f hf c hc
  obtain ⟨w1, w2, w3⟩ := Json.decodeStmSuite_maps h3
  obtain ⟨names, hl, hna, hnd, _, _⟩ := nameAll_spec traces
  have hnamed : GoMap.WF named := by
    rw [h4, Option.some.injEq] at hna
    unfold GoMap.WF; rw [hna, List.map_fst_zip (by omega)]; exact hnd
  have hft : f ∈ traces := by
    rw [h4, Option.some.injEq] at hna
    rw [hna] at hf
    exact (List.of_mem_zip hf).2
  have hg := GoMap.get?_of_mem hnamed hf
  have hsome := h5 name
  rw [hg] at hsome
  obtain ⟨m, hm⟩ := Option.isSome_iff_exists.1 hsome
  have hmem := hpt.mem_iff.2 (GoMap.mem_of_get? hm)
  obtain ⟨g1, _, g3⟩ := h6 name f m hg hm
  have hst := sameState_linear g1 (w3 name m (GoMap.mem_of_get? hm)).1
  have hplain : PlainNames suite' := by
    rintro ⟨k, m'⟩ hk
    have hk' := GoMap.get?_of_mem w2 (hpt.mem_iff.1 hk)
    have := h5 k
    rw [hk'] at this
    obtain ⟨f', hf'⟩ := Option.isSome_iff_exists.1 this.symm
    exact nameAll_plain h4 hpl _ (GoMap.mem_of_get? hf')
  have hw2 : GoMap.WF suite'.tests := by unfold GoMap.WF at w2 ⊢; exact (hpt.map _).nodup_iff.2 w2
  have hw1 : GoMap.WF suite'.types := by unfold GoMap.WF at w1 ⊢; exact (hpty.map _).nodup_iff.2 w1
  have hfiles := (C66_contents cwd fs fs' cfg o suite' hplain hw2 hw1 hv hrun).1 c hc
    ([c!"src", name, c!"src", c!"main.cpp"], .mainCpp c.variant name m (TransitionContext.make m) (c.process suite'.types)) (by
      unfold filesOf
      simp only [List.mem_append]
      exact .inl (.inl (.inr (List.mem_map.2 ⟨_, hmem, rfl⟩))))
  refine ⟨m, _, _, hfiles, fun cbs => ?_⟩
  obtain ⟨m₀, hm₀⟩ : ∃ m₀, BuiltFor f name m₀ := by
    obtain ⟨_, hwf, hb⟩ := build_cases Builder.zero (C18_expansion_valid f name)
    rcases hb with ⟨b', ty, hb, _⟩ | ⟨_, chan, hc⟩
    · exact ⟨_, Builder.zero, _, _, _, C18_expansion_valid f name, hb⟩
    · refine absurd ?_ hty
      obtain ⟨x, y, hx, hy, hxy⟩ := hc
      exact ⟨chan, x, y, ⟨f, hft, (carries_expand f name chan x).1 ((mem_usesOf hwf chan x).1 hx)⟩, ⟨f, hft, (carries_expand f name chan y).1 ((mem_usesOf hwf chan y).1 hy)⟩, hxy⟩
  have hrunm : Harness.run m cbs = Harness.run m₀ cbs := by
    rw [Harness.run_builtFor hm₀, Harness.run_linear hst g3]
  rw [hrunm]
  exact ⟨(Harness.C61_exit_codes f name m₀ hm₀ cbs).1, (Harness.C59_verdict_iff f name m₀ hm₀ cbs).1⟩

/-- A directory holding the conversion code of a configuration, and nothing else. -/
def exFs : Fs where
  isDir := fun a => decide (a <+: [c!"cfg", c!"ros", c!"src", c!"convert"])
  file := fun a => if a = [c!"cfg", c!"ros", c!"src", c!"convert", c!"convert.cpp"] then some (.user c!"code") else none

/-- A configuration. -/
def exCfg : GenConfig := ⟨[⟨Variant.ros, [], [⟨c!"a", c!"Msg"⟩], true, some none⟩], c!"cfg"⟩

theorem exFs_empty : EmptyAt exFs (locate [] c!"out") := by
  have hl : locate [] c!"out" = [c!"out"] := by decide
  rw [hl]
  refine ⟨fun a h => ?_, fun a h hne => ?_⟩
  · unfold exFs
    simp only [ite_eq_right_iff, reduceCtorEq, imp_false]
    rintro rfl; revert h; decide
  · obtain ⟨r, rfl⟩ := h
    unfold exFs
    constructor
    · simp only [ite_eq_right_iff, reduceCtorEq, imp_false]
      intro e
      exact absurd (List.cons.inj e).1 (by decide)
    · rw [decide_eq_false_iff_not, List.singleton_append, List.cons_prefix_cons]
      exact fun e => absurd e.1 (by decide)

/-- Not vacuous: for this file, in a directory holding the conversion code of a channel, the last program succeeds too. -/
example : ∃ tests stms suite fs', readTracesProgram exFile = .ok tests ∧ makeStmsProgram tests = .ok stms ∧
    Json.decodeStmSuite stms = .ok suite ∧ (∀ f ∈ exTraces, f.name = [] ∨ Plain f.name) ∧ (exCfg.cpps.map (·.variant)).Nodup ∧
    Gen.run [] exFs (Gen.ops exCfg c!"out" suite) = (fs', .ok ()) := by
  obtain ⟨j, out, suite, named, h1, h2, h3, h4, h5, h6, h7⟩ := C57_pipeline exFile exTraces exFile_read exTraces_events exTraces_types
  have hpl : ∀ f ∈ exTraces, f.name = [] ∨ Plain f.name := by decide
  obtain ⟨w1, w2, _⟩ := Json.decodeStmSuite_maps h3
  have hplain : PlainNames suite := by
    rintro ⟨k, m'⟩ hk
    have := h5 k
    rw [GoMap.get?_of_mem w2 hk] at this
    obtain ⟨f', hf'⟩ := Option.isSome_iff_exists.1 this.symm
    exact nameAll_plain h4 hpl _ (GoMap.mem_of_get? hf')
  have hkey : c!"a" ∈ suite.types.keys := by
    have ha := (h7 c!"a").1
    cases hg : suite.types.get? c!"a" with
    | some ty => exact List.mem_map.2 ⟨_, GoMap.mem_of_get? hg, rfl⟩
    | none =>
      refine absurd ?_ (ha.1 hg)
      exact ⟨_, exTraces[0], by simp [exTraces], ⟨⟨c!"a", .in_⟩, .int 1⟩, by simp [exTraces, eventsOf], rfl, rfl⟩
  have hok := (C50_succeeds_from_empty_partial [] exFs exCfg c!"out" suite hplain w1 (by decide) exFs_empty
    (fun c hc _ => by
      rw [List.mem_singleton.1 hc]; decide) _ _ (List.Perm.refl _) (List.Perm.refl _)).2 (by
      intro c hc
      rw [List.mem_singleton.1 hc]
      exact ⟨.inl ⟨⟨c!"a", c!"Msg"⟩, by decide, hkey⟩, fun _ => by decide⟩)
  exact ⟨j, out, suite, (Gen.run [] exFs (Gen.ops exCfg c!"out" suite)).1, h1, h2, h3, hpl, by decide, Prod.ext rfl hok⟩

end Rtcg
