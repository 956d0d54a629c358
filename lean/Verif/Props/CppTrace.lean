import Verif.Props.CppRun
import Verif.Proofs.CppTrace

/-
From a file of forbidden traces to what the generated programs do, by the texts in the output directory.
-/

namespace Rtcg

open Spec Spec.Cpp Program Programs Harness

/-- The texts of rtcg.h, rtcg.cpp and the main.cpp of a test, as they are below a directory, make a program. -/
def Spec.Cpp.OnDisk (T : TextLayer) (fs : Fs) (dir : Loc) (name : Str) (P : Prog) : Prop :=
  ∃ h cpp main, HasText T fs (dir ++ [c!"src", c!"rtcg", c!"rtcg.h"]) h ∧ HasText T fs (dir ++ [c!"src", c!"rtcg", c!"rtcg.cpp"]) cpp ∧
    HasText T fs (dir ++ [c!"src", name, c!"src", c!"main.cpp"]) main ∧ program [h, cpp, main] = some P

/-- The texts of rtcg.h, rtcg.cpp and the main.cpp of a test are below a directory. -/
def Spec.Cpp.HasTexts (T : TextLayer) (fs : Fs) (dir : Loc) (c : CppConfig.Config) (types : TypeMap) (name : Str) (m : Stm) : Prop :=
  HasText T fs (dir ++ [c!"src", c!"rtcg", c!"rtcg.h"]) TemplateFiles.rtcgH ∧
  HasText T fs (dir ++ [c!"src", c!"rtcg", c!"rtcg.cpp"]) TemplateFiles.rtcgCpp ∧
  HasText T fs (dir ++ [c!"src", name, c!"src", c!"main.cpp"])
    (CppText.mainText T.unicode c.variant T.date name m (TransitionContext.make m) (c.process types) (Harness.initial m))

section

variable {T : TextLayer} {env : Env} {config trace file : Str} {traces : List Forbidden} {fs' : Fs}

/-- What the script has done, when it has succeeded: the machines of the traces, and the run of rtcg-gen on them. -/
theorem Spec.Cpp.script_gen (hc : config.head? ≠ some '-') (hr : Reads T env trace file)
    (h : Forbidden.read file = some (.ok traces))
    (hev : ∀ f ∈ traces, ∀ e ∈ eventsOf f, e.channel.name ≠ [] ∧ e.value ≠ .none)
    (hty : ¬ ∃ chan, Conflict (fun ty => ∃ f ∈ traces, TraceCarries f chan ty))
    (hpl : ∀ f ∈ traces, f.name = [] ∨ Spec.Plain f.name)
    (hrun : Program.script T env [config, trace] = (fs', 0)) :
    ∃ named ts suite stms, Forbidden.nameAll traces = some named ∧
      MadeFrom ts suite ∧ (∀ nt ∈ ts, NoIds nt.2.root) ∧ TypesAre suite.types (fun chan ty => ∃ f ∈ traces, TraceCarries f chan ty) ∧
      PlainNames suite ∧ GivenSuite T { env with stdin := stms } [config, c!"-"] config suite ∧
      Program.gen T { env with stdin := stms } false c!"out" [config, c!"-"] = (fs', .ok ()) ∧
      ∀ name f, (name, f) ∈ named → ∃ m m₀, (name, m) ∈ suite.tests ∧ m.states = linearStates f name ∧ GoSet.values m.tests = [name] ∧
          (BuiltFor f name m₀ ∧ ∀ cbs, Harness.run m cbs = Harness.run m₀ cbs) := by
  obtain ⟨tests, stms, h1, h2, h3⟩ := (C91_exit_partial T env config trace hc fs').1 hrun
  obtain ⟨j1, j2, suite, named, e1, e2, e3, e4, e5, e6, e7⟩ := C57_pipeline file traces h hev hty
  obtain ⟨named', j1', s', vs, g1, g2, g3, g4, g5, g6, g7⟩ := read_pipeline h fun f hf e he => (hev f hf e he).1
  rw [e1] at g4; cases g4
  rw [e4] at g1; cases g1
  obtain ⟨_, file', j1', ha, hr', _, hj1, hw1⟩ := ((C84_read_traces T env _).2 tests).1 h1
  rcases ha with ⟨_, ha, _⟩ | ⟨_, ha⟩
  · simp at ha
  cases ha
  rw [← reads_iff] at hr hr'
  rw [hr] at hr'; cases hr'
  rw [e1] at hj1; cases hj1
  obtain ⟨_, text2, input, j2', ha, hr2, hp2, _, hj2, hw2⟩ := ((C84_make_stms T _ _).2 stms).1 h2
  rcases ha with ⟨_, ha, _⟩ | ⟨_, ha⟩
  · simp at ha
  cases ha
  have htx : text2 = tests := by
    rcases hr2 with ⟨_, e⟩ | ⟨hx, _⟩
    · exact e
    · exact absurd rfl hx
  rw [htx] at hp2
  have hb1 := C85_read_back j1 tests [] (C85_programs.1 _ _ e1) hw1
  rw [List.append_nil] at hb1
  rw [hb1] at hp2; cases hp2
  rw [e2] at hj2; cases hj2
  have hb2 := C85_read_back j2 stms [] (C85_programs.2 _ _ e2).1 hw2
  rw [List.append_nil] at hb2
  have hg : GivenSuite T { env with stdin := stms } [config, c!"-"] config suite :=
    ⟨c!"-", stms, j2, .inr rfl, .inl ⟨by decide, rfl⟩, hb2, e3⟩
  have hvs : ∀ k t, (k, t) ∈ vs → ∃ f, (k, f) ∈ named ∧ f ∈ traces ∧ t = ⟨f.expand k⟩ := by
    intro k t ht
    obtain ⟨⟨k', f⟩, hf, e⟩ := List.mem_map.1 (g7.mem_iff.2 ht)
    simp only [Prod.mk.injEq] at e
    obtain ⟨rfl, rfl⟩ := e
    exact ⟨f, hf, by rw [← g3]; exact List.mem_map.2 ⟨_, hf, rfl⟩, rfl⟩
  have hmade : MadeFrom vs suite := by
    refine C73_make_stms j1 j2 s' vs suite g5 g6 e2 ?_ e3
    rintro ⟨k, t⟩ ht
    obtain ⟨f, _, hf, rfl⟩ := hvs k t ht
    exact (allEvents_expand f k).2 fun x hx => (hev f hf x hx).1
  have hno : ∀ nt ∈ vs, NoIds nt.2.root := by
    rintro ⟨k, t⟩ ht
    obtain ⟨f, _, hf, rfl⟩ := hvs k t ht
    exact C29_expand_noIds f k
  have hplain : PlainNames suite := by
    rintro ⟨k, m'⟩ hk
    have := e5 k
    rw [GoMap.get?_of_mem hmade.2.2.2.2.1 hk] at this
    obtain ⟨f', hf'⟩ := Option.isSome_iff_exists.1 this.symm
    exact nameAll_plain e4 hpl _ (GoMap.mem_of_get? hf')
  refine ⟨named, vs, suite, stms, e4, hmade, hno, e7, hplain, hg, h3, fun name f hf => ?_⟩
  have hget := GoMap.get?_of_mem g2 hf
  have hsome := e5 name
  rw [hget] at hsome
  obtain ⟨m, hm⟩ := Option.isSome_iff_exists.1 hsome
  have hmem := GoMap.mem_of_get? hm
  obtain ⟨k1, _, k3⟩ := e6 name f m hget hm
  have hst := sameState_linear k1 ((Json.decodeStmSuite_maps e3).2.2 name m hmem).1
  have hft : f ∈ traces := by rw [← g3]; exact List.mem_map.2 ⟨_, hf, rfl⟩
  obtain ⟨m₀, hm₀⟩ : ∃ m₀, BuiltFor f name m₀ := by
    obtain ⟨_, hwf, hb⟩ := build_cases Builder.zero (C18_expansion_valid f name)
    rcases hb with ⟨b', ty, hb, _⟩ | ⟨_, chan, hc⟩
    · exact ⟨_, Builder.zero, _, _, _, C18_expansion_valid f name, hb⟩
    · refine absurd ?_ hty
      obtain ⟨x, y, hx, hy, hxy⟩ := hc
      exact ⟨chan, x, y, ⟨f, hft, (carries_expand f name chan x).1 ((mem_usesOf hwf chan x).1 hx)⟩, ⟨f, hft, (carries_expand f name chan y).1 ((mem_usesOf hwf chan y).1 hy)⟩, hxy⟩
  exact ⟨m, m₀, hmem, hst, k3, hm₀, fun cbs => by rw [Harness.run_builtFor hm₀, Harness.run_linear hst k3]⟩

/-- What the script has done, when it has succeeded: the machines of the traces, their texts, and the programs of those that are good. -/
theorem Spec.Cpp.script_texts (hU : T.unicode.AsciiOK) (hc : config.head? ≠ some '-') (hr : Reads T env trace file)
    (h : Forbidden.read file = some (.ok traces))
    (hev : ∀ f ∈ traces, ∀ e ∈ eventsOf f, e.channel.name ≠ [] ∧ e.value ≠ .none)
    (hty : ¬ ∃ chan, Conflict (fun ty => ∃ f ∈ traces, TraceCarries f chan ty))
    (hpl : ∀ f ∈ traces, f.name = [] ∨ Spec.Plain f.name)
    (hrun : Program.script T env [config, trace] = (fs', 0)) :
    ∃ cfg named ts suite, loadConfig T env.cwd env.fs (cleanPath config) = .ok cfg ∧ Forbidden.nameAll traces = some named ∧
      MadeFrom ts suite ∧ (∀ nt ∈ ts, NoIds nt.2.root) ∧ TypesAre suite.types (fun chan ty => ∃ f ∈ traces, TraceCarries f chan ty) ∧
      ((cfg.cpps.map (·.variant)).Nodup → ∀ c ∈ cfg.cpps, HasText T fs'
        (locate env.cwd c!"out" ++ [c.variant.string] ++ [c!"src", c!"convert", c!"convert.h"])
        (CppText.convertText T.unicode c.variant (c.process suite.types))) ∧
      ((cfg.cpps.map (·.variant)).Nodup → ∀ name f, (name, f) ∈ named → ∀ c ∈ cfg.cpps, (c.variant = .animate ∨ c.variant = .ros) ∧
        ∃ m m₀, (name, m) ∈ suite.tests ∧ m.states = linearStates f name ∧ GoSet.values m.tests = [name] ∧
          (BuiltFor f name m₀ ∧ ∀ cbs, Harness.run m cbs = Harness.run m₀ cbs) ∧
          HasTexts T fs' (locate env.cwd c!"out" ++ [c.variant.string]) c suite.types name m ∧
          (GoodTest T.unicode T.date c name m → ∃ P, Generated T.unicode T.date c suite.types name m P ∧
            OnDisk T fs' (locate env.cwd c!"out" ++ [c.variant.string]) name P)) := by
  obtain ⟨named, vs, suite, stms, e4, hmade, hno, e7, hplain, hg, h3, hms⟩ := script_gen hc hr h hev hty hpl hrun
  obtain ⟨fs, cfg, d1, d2, d3⟩ := C105_generated T { env with stdin := stms } false c!"out" _ config suite fs' hg hplain h3
  simp only [Gen.maybeClean, Bool.not_false, if_true, Prod.mk.injEq, and_true] at d1
  subst d1
  refine ⟨cfg, named, vs, suite, d2, e4, hmade, hno, e7, fun hv c hcc => (d3 hv c hcc).2.2.1, fun hv name f hf c hcc => ?_⟩
  have hvar : c.variant = .animate ∨ c.variant = .ros := by
    obtain ⟨file, raw, _, hs, hcpp, _⟩ := (C93_load T env.cwd env.fs (cleanPath config) cfg).1 d2
    rw [hcpp] at hcc
    exact ((ConfigSay.says_fits hs).cpps c hcc).variant
  obtain ⟨m, m₀, hmem, hst, k3, hm₀⟩ := hms name f hf
  refine ⟨hvar, m, m₀, hmem, hst, k3, hm₀, ?_⟩
  obtain ⟨f1, f2, _, f4, _⟩ := d3 hv c hcc
  obtain ⟨s, rest, hs, f5⟩ := f4 name m hmem
  have hi : Harness.initial m = s.id := by
    unfold Harness.initial Stm.initialState
    rw [hs]
  rw [← hi] at f5
  refine ⟨⟨f2, f1, f5⟩, fun good => ?_⟩
  obtain ⟨p1, p2, p3⟩ := generated hU hvar hmade hno hmem good
  exact ⟨_, (p3 _).2 rfl, _, _, _, f2, f1, f5, program_main (Good.ok_env hU hvar) p1⟩

/-- What the script has done, when it has succeeded: the machines of the traces, and the programs of those that are good. -/
theorem Spec.Cpp.script_programs (hU : T.unicode.AsciiOK) (hc : config.head? ≠ some '-') (hr : Reads T env trace file)
    (h : Forbidden.read file = some (.ok traces))
    (hev : ∀ f ∈ traces, ∀ e ∈ eventsOf f, e.channel.name ≠ [] ∧ e.value ≠ .none)
    (hty : ¬ ∃ chan, Conflict (fun ty => ∃ f ∈ traces, TraceCarries f chan ty))
    (hpl : ∀ f ∈ traces, f.name = [] ∨ Spec.Plain f.name)
    (hrun : Program.script T env [config, trace] = (fs', 0)) :
    ∃ cfg named ts suite, loadConfig T env.cwd env.fs (cleanPath config) = .ok cfg ∧ Forbidden.nameAll traces = some named ∧
      MadeFrom ts suite ∧ (∀ nt ∈ ts, NoIds nt.2.root) ∧ TypesAre suite.types (fun chan ty => ∃ f ∈ traces, TraceCarries f chan ty) ∧
      ((cfg.cpps.map (·.variant)).Nodup → ∀ c ∈ cfg.cpps, HasText T fs'
        (locate env.cwd c!"out" ++ [c.variant.string] ++ [c!"src", c!"convert", c!"convert.h"])
        (CppText.convertText T.unicode c.variant (c.process suite.types))) ∧
      ((cfg.cpps.map (·.variant)).Nodup → ∀ name f, (name, f) ∈ named → ∀ c ∈ cfg.cpps, (c.variant = .animate ∨ c.variant = .ros) ∧
        ∃ m m₀, (name, m) ∈ suite.tests ∧ m.states = linearStates f name ∧ GoSet.values m.tests = [name] ∧
          (BuiltFor f name m₀ ∧ ∀ cbs, Harness.run m cbs = Harness.run m₀ cbs) ∧
          (GoodTest T.unicode T.date c name m → ∃ P, Generated T.unicode T.date c suite.types name m P ∧
            OnDisk T fs' (locate env.cwd c!"out" ++ [c.variant.string]) name P)) := by
  obtain ⟨cfg, named, ts, suite, h1, h2, h3, h4, h5, h6, h7⟩ := script_texts hU hc hr h hev hty hpl hrun
  refine ⟨cfg, named, ts, suite, h1, h2, h3, h4, h5, h6, fun hv name f hf c hcc => ?_⟩
  obtain ⟨g1, m, m₀, g2, g3, g4, g5, _, g6⟩ := h7 hv name f hf c hcc
  exact ⟨g1, m, m₀, g2, g3, g4, g5, g6⟩

theorem Spec.Cpp.Trace.plain_ident {w : Str} (h : Ident w) : Cpp.Plain w := by
  unfold Ident isIdent at h
  simp only [Bool.and_eq_true] at h
  exact Good.plain_of_word h.1.2

theorem Spec.Cpp.Trace.good {U : Unicode} {date name : Str} {f : Forbidden} {m : Stm} {c : CppConfig.Config} (hU : U.AsciiOK)
    {ts : GoMap Str Validate.Test} {r : StmSuite} (h : MadeFrom ts r) (hno : ∀ nt ∈ ts, NoIds nt.2.root) (hm : (name, m) ∈ r.tests)
    (hs : m.states = linearStates f name) (ht : GoSet.values m.tests = [name]) (hn : TraceNames U c.variant f name) (hd : OneLine date)
    (hi : ∀ i ∈ c.includes, OneLine i.src) : GoodTest U date c name m :=
  ⟨wellNamed hU h hno hm hs ht hn, hd, Trace.plain_ident hn.test.1, hi⟩

/-- C110: from a traces file to what the ROS programs do.  Run on a good traces file and a configuration with distinct variants, if the script
ends with exit code 0, then for every trace whose names can be names in C++ the output directory of the variant ros holds texts that make a
C++ program; and whatever callbacks ROS calls in it, it waits for more or ends with exit code 0, 1 or 2, it is 1 exactly when the callbacks
that count begin with the whole trace, and 2 exactly when an acknowledgement came out of place; and once the start delay is over it has sent
the inputs of the trace up to and including the event it waits for, in order. -/
theorem C110_ros (hU : T.unicode.AsciiOK) (hc : config.head? ≠ some '-') (hr : Reads T env trace file)
    (h : Forbidden.read file = some (.ok traces))
    (hev : ∀ f ∈ traces, ∀ e ∈ eventsOf f, e.channel.name ≠ [] ∧ e.value ≠ .none)
    (hty : ¬ ∃ chan, Conflict (fun ty => ∃ f ∈ traces, TraceCarries f chan ty))
    (hpl : ∀ f ∈ traces, f.name = [] ∨ Spec.Plain f.name) (hdate : OneLine T.date)
    (hrun : Program.script T env [config, trace] = (fs', 0)) :
    ∃ cfg named, loadConfig T env.cwd env.fs (cleanPath config) = .ok cfg ∧ Forbidden.nameAll traces = some named ∧
      ((cfg.cpps.map (·.variant)).Nodup → ∀ c ∈ cfg.cpps, c.variant = .ros → (∀ i ∈ c.includes, OneLine i.src) →
        ∀ name f, (name, f) ∈ named → TraceNames T.unicode .ros f name →
        ∃ P, OnDisk T fs' (locate env.cwd c!"out" ++ [c!"ros"]) name P ∧
          ∀ L, TraceLib L T.unicode .ros f → ∀ xs : List (Callback × List Cpp.Val), (∀ x ∈ xs, TraceCallback f x.1 ∧ ArgsOf L T.unicode .ros x.1 x.2) →
          ∀ argc argv input fuel depth, 6 ≤ depth →
          let r := runMain P L fuel depth [argc, argv] input (xs.map eventOf)
          let seen := (xs.map (·.1)).filter (counts f)
          ∃ st', (r = .wait st' ∨ ∃ k ∈ [0, 1, 2], r = .ok (.int k) st') ∧
            (r = .wait st' ↔ seen <+: Spec.script f ∧ seen ≠ Spec.script f) ∧
            (r = .ok (.int 1) st' ↔ Spec.script f <+: seen) ∧
            (r = .ok (.int 2) st' ↔ Deviates (Spec.script f) seen .accepted) ∧
            ((StartsWithInput f → Started f (xs.map (·.1))) → st'.eff.filter (isSend .ros) =
              (inputsOf ((eventsOf f).take (progress (Spec.script f) seen + 1))).map (sendEffect L T.unicode .ros))) := by
  obtain ⟨cfg, named, ts, suite, h1, h2, h3, h4, h5, _, h6⟩ := script_programs hU hc hr h hev hty hpl hrun
  refine ⟨cfg, named, h1, h2, fun hv c hcc hcv hinc name f hf hnames => ?_⟩
  obtain ⟨_, m, m₀, g1, g2, g3, ⟨g4, g5⟩, g6⟩ := h6 hv name f hf c hcc
  have good : GoodTest T.unicode T.date c name m := Trace.good hU h3 h4 g1 g2 g3 (by rw [hcv]; exact hnames) hdate hinc
  obtain ⟨P, hP, hD⟩ := g6 good
  rw [hcv] at hD
  refine ⟨P, hD, fun L hL xs hx argc argv input fuel depth hd => ?_⟩
  obtain ⟨st', k1, k2, k3, k4, _⟩ := C108_ros hU hcv h3 h4 g1 good hP (Trace.provides g2 hL) xs
    (fun x hxx => ⟨Trace.hasCallback g2 (hx x hxx).1, (hx x hxx).2⟩) argc argv input fuel hd
  rw [g5] at k1 k4
  have e1 := C58_endings f name m₀ g4 (xs.map (·.1))
  have e2 := C58_fail_iff f name m₀ g4 (xs.map (·.1))
  refine ⟨st', ?_, ?_, ?_, ?_, ?_⟩
  · rw [k1]
    unfold Harness.exitCode
    cases (Harness.run m₀ (xs.map (·.1))).status <;> simp [Status.isRunning, Status.exitCode]
  · rw [k1, ← e1.1]
    unfold Harness.exitCode
    cases (Harness.run m₀ (xs.map (·.1))).status <;> simp [Status.isRunning, Status.exitCode]
  · rw [k1, ← e2]
    unfold Harness.exitCode
    cases (Harness.run m₀ (xs.map (·.1))).status <;> simp [Status.isRunning, Status.exitCode]
  · rw [k1, ← e1.2.2.1]
    unfold Harness.exitCode
    cases (Harness.run m₀ (xs.map (·.1))).status <;> simp [Status.isRunning, Status.exitCode]
  · intro hst
    rw [k4, C62_sent_partial f name m₀ g4 _ hst]

/-- C110: … and what the animations do.  Whatever is typed — commands, names of outputs with values of their types, or something else — the
program waits for more or ends with exit code 0 or 1, and it is 1 exactly when what the words mean begins with the whole trace; it reads no more
than that; and once it has been told to start it has said that the SUT receives the inputs of the trace up to and including the event it waits
for, in order. -/
theorem C110_animate (hU : T.unicode.AsciiOK) (hc : config.head? ≠ some '-') (hr : Reads T env trace file)
    (h : Forbidden.read file = some (.ok traces))
    (hev : ∀ f ∈ traces, ∀ e ∈ eventsOf f, e.channel.name ≠ [] ∧ e.value ≠ .none)
    (hty : ¬ ∃ chan, Conflict (fun ty => ∃ f ∈ traces, TraceCarries f chan ty))
    (hpl : ∀ f ∈ traces, f.name = [] ∨ Spec.Plain f.name) (hdate : OneLine T.date)
    (hrun : Program.script T env [config, trace] = (fs', 0)) :
    ∃ cfg named, loadConfig T env.cwd env.fs (cleanPath config) = .ok cfg ∧ Forbidden.nameAll traces = some named ∧
      ((cfg.cpps.map (·.variant)).Nodup → ∀ c ∈ cfg.cpps, c.variant = .animate → (∀ i ∈ c.includes, OneLine i.src) →
        ∀ name f, (name, f) ∈ named → TraceNames T.unicode .animate f name →
        ∃ P, OnDisk T fs' (locate env.cwd c!"out" ++ [c!"animate"]) name P ∧
          ∀ L, TraceLib L T.unicode .animate f → ∀ ws : List (Str × Value),
          (∀ w ∈ ws, ∀ e ∈ eventsOf f, e.channel.kind ≠ kIn → e.channel.name = w.1 →
            (∃ ty, LeastUpper (fun ty => ∃ f ∈ traces, TraceCarries f w.1 ty) ty ∧ FitsType ty w.2) ∧
            L.val [Rtcg.Cpp.convertFrom T.unicode w.1] [L.val [Rtcg.Cpp.convertTo T.unicode w.1] [valueVal w.2]] = valueVal w.2) →
          let cbs := meanings f [] ws
          let seen := cbs.filter (counts f)
          ∀ rest events fuel depth, (Ongoing f cbs → rest = []) → ws.length < fuel → 6 ≤ depth →
          let r := runMain P L fuel depth [] (typing f [] ws ++ rest) events
          ∃ st', (r = .wait st' ∨ ∃ k ∈ [0, 1], r = .ok (.int k) st') ∧
            (r = .wait st' ↔ Ongoing f cbs) ∧
            (r = .ok (.int 1) st' ↔ Spec.script f <+: seen) ∧
            st'.input = rest ∧
            ((StartsWithInput f → Started f cbs) → st'.eff.filter (isSend .animate) =
              (inputsOf ((eventsOf f).take (progress (Spec.script f) seen + 1))).map (sendEffect L T.unicode .animate))) := by
  obtain ⟨cfg, named, ts, suite, h1, h2, h3, h4, h5, _, h6⟩ := script_programs hU hc hr h hev hty hpl hrun
  refine ⟨cfg, named, h1, h2, fun hv c hcc hcv hinc name f hf hnames => ?_⟩
  obtain ⟨_, m, m₀, g1, g2, g3, ⟨g4, g5⟩, g6⟩ := h6 hv name f hf c hcc
  have good : GoodTest T.unicode T.date c name m := Trace.good hU h3 h4 g1 g2 g3 (by rw [hcv]; exact hnames) hdate hinc
  obtain ⟨P, hP, hD⟩ := g6 good
  rw [hcv] at hD
  refine ⟨P, hD, fun L hL ws hx rest events fuel depth hrest hfuel hd => ?_⟩
  have ha := Trace.animate_run g2 g3 hnames.distinct ws
  have htp := Trace.typed_eq g2 g3 hnames.distinct ws
  have hon := (Trace.status_ongoing g2 g3 (meanings f [] ws)).1
  obtain ⟨st', k1, k2, k3, k4, _⟩ := C109_animate hU hcv h3 h4 g1 good hP (Trace.provides g2 hL) ws
    (fun w hw s hs x hxs hk hn => by
      obtain ⟨e, he, h1, _⟩ := Trace.sets g2 hs hxs
      rw [h1] at hk hn ⊢
      obtain ⟨⟨ty, q1, q2⟩, q3⟩ := hx w hw e he hk hn
      rw [← hn] at q1 q3
      refine ⟨⟨ty, ?_, q2⟩, q3⟩
      obtain ⟨ty', r1, r2⟩ := Good.made_types h3 g1 c s hs x hxs
      rw [h1] at r1 r2
      obtain ⟨ty'', r3, r4⟩ := (h5 _).2 _ r1
      cases r3
      rw [r2, LeastUpper.unique q1 r4]) rest
    (fun hrn => hrest (hon.1 (by rw [← ha]; exact hrn))) events hfuel hd
  rw [ha, htp] at k1
  rw [ha] at k4
  rw [g5] at k1 k4 hon
  have e1 := C58_endings f name m₀ g4 (meanings f [] ws)
  have e2 := C58_fail_iff f name m₀ g4 (meanings f [] ws)
  have e3 : (Harness.run m₀ (meanings f [] ws)).status ≠ .bug := by
    refine Trace.not_bug g4 ws [] ?_
    rw [Ne, (C58_endings f name m₀ g4 []).2.2.1]
    exact Trace.ongoing_no (f := f) (done := []) List.nil_prefix _
  refine ⟨st', ?_, ?_, ?_, k3, ?_⟩
  · rw [k1]
    unfold Harness.exitCode
    revert e3
    cases (Harness.run m₀ (meanings f [] ws)).status <;> simp [Status.isRunning, Status.exitCode]
  · rw [k1, ← hon]
    unfold Harness.exitCode
    cases (Harness.run m₀ (meanings f [] ws)).status <;> simp [Status.isRunning, Status.exitCode]
  · rw [k1, ← e2]
    unfold Harness.exitCode
    cases (Harness.run m₀ (meanings f [] ws)).status <;> simp [Status.isRunning, Status.exitCode]
  · intro hst
    rw [k4, C62_sent_partial f name m₀ g4 _ hst]

end

/-! ### examples -/

def exBothText : Str := c!"<rtcg-gen><directory>cfg</directory><cpp variant=\"ros\"><channel name='a' type=\"Msg\"/><include src=\"my.h\"/></cpp>" ++
  c!"<cpp variant=\"animate\"><channel name='a' type=\"Msg\"/><makefile/></cpp></rtcg-gen>"

def exBothCfg : GenConfig :=
  ⟨[⟨Variant.ros, [⟨c!"my.h", false⟩], [⟨c!"a", c!"Msg"⟩], false, none⟩, ⟨Variant.animate, [], [⟨c!"a", c!"Msg"⟩], true, none⟩], c!"cfg"⟩

def exBothFs : Fs := ⟨fun a => decide (a = []), fun a =>
  if a = [c!"traces.csv"] then some (.user exFile) else if a = [c!"cfg.xml"] then some (.user exBothText)
  else if a = [c!"cfg", c!"ros", c!"src", c!"convert", c!"convert.cpp"] then some (.user c!"code")
  else if a = [c!"cfg", c!"animate", c!"src", c!"convert", c!"convert.cpp"] then some (.user c!"code") else none⟩

def exBothT : TextLayer := ⟨⟨fun _ => false, fun _ => false⟩, asciiUnicode, c!"today"⟩

theorem exBoth_reads : Reads exBothT ⟨[], exBothFs, []⟩ c!"traces.csv" exFile := by
  refine .inr ⟨by decide, by decide, .user exFile, ?_, rfl⟩
  rw [show locate [] c!"traces.csv" = [c!"traces.csv"] by decide]
  rfl

theorem exBoth_loads : loadConfig exBothT [] exBothFs (cleanPath c!"cfg.xml") = .ok exBothCfg := by
  refine loadConfig_given (text := exBothText) ?_ (show Xml.parseConfig ⟨fun _ => false, fun _ => false⟩ exBothText = _ by decide +kernel) (by decide)
  rw [show locate [] (cleanPath c!"cfg.xml") = [c!"cfg.xml"] by decide]
  rfl

theorem exBoth_empty : EmptyAt exBothFs (locate [] c!"out") := by
  rw [show locate [] c!"out" = [c!"out"] by decide]
  have hno : ∀ a : Loc, [c!"out"] <+: a → exBothFs.file a = none := by
    rintro a ⟨r, rfl⟩
    simp only [exBothFs, List.singleton_append, List.cons.injEq]
    rw [if_neg (fun h => absurd h.1 (by decide)), if_neg (fun h => absurd h.1 (by decide)), if_neg (fun h => absurd h.1 (by decide)),
      if_neg (fun h => absurd h.1 (by decide))]
  refine ⟨fun a ha => ?_, fun a ha hne => ⟨hno a ha, ?_⟩⟩
  · rcases List.prefix_cons_iff.1 ha with rfl | ⟨t, rfl, ht⟩
    · decide
    · exact hno _ (by rw [List.prefix_nil.1 ht])
  · obtain ⟨r, rfl⟩ := ha
    simp [exBothFs]

theorem exBoth_succeeds : ∃ fs', Program.script exBothT ⟨[], exBothFs, []⟩ [c!"cfg.xml", c!"traces.csv"] = (fs', 0) := by
  refine ⟨_, Prod.ext rfl (C91_succeeds exBothT ⟨[], exBothFs, []⟩ c!"cfg.xml" c!"traces.csv" exFile exTraces exBothCfg (by decide) exBoth_reads exFile_read
    (by decide) exTraces_events exTraces_types (by decide) exBoth_loads (by decide) ?_ ?_ ?_)⟩
  · exact exBoth_empty
  · decide
  · intro c hcc
    have : ∃ ch ∈ c.channels, ch.name = c!"a" := by
      simp only [exBothCfg, List.mem_cons, List.not_mem_nil, or_false] at hcc
      rcases hcc with rfl | rfl <;> exact ⟨_, List.mem_singleton.2 rfl, rfl⟩
    obtain ⟨ch, h1, h2⟩ := this
    refine ⟨⟨ch, h1, exTraces[0], by simp [exTraces], ⟨⟨c!"a", .in_⟩, .int 1⟩, by simp [exTraces, eventsOf], h2.symm⟩, ?_⟩
    simp only [exBothCfg, List.mem_cons, List.not_mem_nil, or_false] at hcc
    rcases hcc with rfl | rfl <;> decide

theorem exBoth_names (v : Variant) : TraceNames asciiUnicode v exTraces[0] c!"x" := by
  refine ⟨?_, by unfold Ident; decide, by decide, by decide, fun _ => by decide, ?_⟩
  · unfold WordName Cpp.GoodValue Cpp.Plain; decide
  · intro e he e' he' g hg
    refine ⟨?_, fun _ => ?_⟩ <;> revert e e' g <;> decide

theorem exBoth_lib (v : Variant) : TraceLib exLib asciiUnicode v exTraces[0] :=
  ⟨fun _ _ => rfl, fun _ _ => ⟨rfl, rfl⟩, fun _ => ⟨fun _ _ => rfl, fun _ _ => rfl, fun _ _ => ⟨rfl, fun _ => ⟨1, rfl⟩⟩⟩⟩

/-- The hypotheses of C110 are met: the script run on this file ends with exit code 0, and the program of its first trace that is then there
ends with exit code 1 when the trace happens, and with exit code 0 when another output comes. -/
example : ∃ fs' P, Program.script exBothT ⟨[], exBothFs, []⟩ [c!"cfg.xml", c!"traces.csv"] = (fs', 0) ∧ OnDisk exBothT fs' [c!"out", c!"ros"] c!"x" P ∧
    (∃ st', runMain P exLib 0 6 [.int 0, .void] [] ([(.start, [.void]), (.accepted, [.void]), (.output ⟨c!"b", .out⟩ (.enum c!"ok"), [.str c!"ok"])].map eventOf) =
      .ok (.int 1) st') ∧
    ∃ st', runMain P exLib 0 6 [.int 0, .void] [] ([(.start, [.void]), (.accepted, [.void]), (.output ⟨c!"b", .out⟩ (.enum c!"no"), [.str c!"no"])].map eventOf) =
      .ok (.int 0) st' := by
  obtain ⟨fs', hrun⟩ := exBoth_succeeds
  obtain ⟨cfg, named, h1, h2, h3⟩ := C110_ros (T := exBothT) asciiUnicode_ok (by decide) exBoth_reads exFile_read exTraces_events exTraces_types (by decide)
    (by unfold OneLine; decide) hrun
  rw [exBoth_loads] at h1
  cases h1
  have hn : Forbidden.nameAll exTraces = some [(c!"x", exTraces[0]), (c!"test0", exTraces[1])] := by decide +kernel
  rw [hn] at h2
  cases h2
  obtain ⟨P, hP, hL⟩ := h3 (by decide) _ (List.mem_cons_self ..) rfl (by unfold OneLine; decide) c!"x" exTraces[0] (List.mem_cons_self ..) (exBoth_names _)
  have hcb : ∀ s : Str, ∀ x ∈ [(Callback.start, [Cpp.Val.void]), (.accepted, [.void]), (.output ⟨c!"b", .out⟩ (.enum s), [.str s])],
      TraceCallback exTraces[0] x.1 ∧ ArgsOf exLib exBothT.unicode .ros x.1 x.2 := by
    intro s x hx
    simp only [List.mem_cons, List.not_mem_nil, or_false] at hx
    rcases hx with rfl | rfl | rfl
    · exact ⟨by unfold TraceCallback; decide, rfl⟩
    · exact ⟨by unfold TraceCallback; decide, rfl⟩
    · refine ⟨⟨by decide, by decide, by simp, ?_⟩, _, rfl, rfl⟩
      intro e he hc
      have : e = ⟨⟨c!"b", .out⟩, .enum c!"ok"⟩ := by revert e; decide
      subst this
      rfl
  refine ⟨fs', P, hrun, hP, ?_, ?_⟩
  · obtain ⟨st', _, _, k3, _⟩ := hL exLib (exBoth_lib _) _ (hcb c!"ok") (.int 0) .void [] 0 6 (Nat.le_refl 6)
    exact ⟨st', k3.2 (by decide)⟩
  · obtain ⟨st', k1, k2, k3, k4, _⟩ := hL exLib (exBoth_lib _) _ (hcb c!"no") (.int 0) .void [] 0 6 (Nat.le_refl 6)
    have n4 : ¬ Deviates (Spec.script exTraces[0]) [.accepted, .output ⟨c!"b", .out⟩ (.enum c!"no")] .accepted := by
      rintro ⟨pre, rest, q1, q2, _, q4⟩
      match pre with
      | [] => exact q4 (by decide)
      | a :: [] => simp at q1
      | a :: b :: l => simp at q1
    rcases k1 with k1 | ⟨k, hk, k1⟩
    · exact absurd (k2.1 k1) (by decide)
    · simp only [List.mem_cons, List.not_mem_nil, or_false] at hk
      rcases hk with rfl | rfl | rfl
      · exact ⟨st', k1⟩
      · exact absurd (k3.1 k1) (by decide)
      · exact absurd (k4.1 k1) n4

/-- … and so are those about animations. -/
example : ∃ fs' P, Program.script exBothT ⟨[], exBothFs, []⟩ [c!"cfg.xml", c!"traces.csv"] = (fs', 0) ∧ OnDisk exBothT fs' [c!"out", c!"animate"] c!"x" P ∧
    ∃ st', runMain P exLib 6 6 [] [c!"accept", c!"ready", c!"accept", c!"b", c!"ok", c!"more"] [] = .ok (.int 1) st' ∧ st'.input = [c!"more"] := by
  obtain ⟨fs', hrun⟩ := exBoth_succeeds
  obtain ⟨cfg, named, h1, h2, h3⟩ := C110_animate (T := exBothT) asciiUnicode_ok (by decide) exBoth_reads exFile_read exTraces_events exTraces_types
    (by decide) (by unfold OneLine; decide) hrun
  rw [exBoth_loads] at h1
  cases h1
  have hn : Forbidden.nameAll exTraces = some [(c!"x", exTraces[0]), (c!"test0", exTraces[1])] := by decide +kernel
  rw [hn] at h2
  cases h2
  obtain ⟨P, hP, hL⟩ := h3 (by decide) _ (List.mem_cons_of_mem _ (List.mem_cons_self ..)) rfl (by simp) c!"x" exTraces[0] (List.mem_cons_self ..)
    (exBoth_names _)
  refine ⟨fs', P, hrun, hP, ?_⟩
  obtain ⟨st', _, _, k3, k4, _⟩ := hL exLib (exBoth_lib _) [(c!"accept", .none), (c!"ready", .none), (c!"accept", .none), (c!"b", .enum c!"ok")] (by
    intro w hw e he hk hn
    have hb : e = ⟨⟨c!"b", .out⟩, .enum c!"ok"⟩ := by
      have : ∀ e ∈ eventsOf exTraces[0], e.channel.kind ≠ kIn → e = ⟨⟨c!"b", .out⟩, .enum c!"ok"⟩ := by decide
      exact this e he hk
    subst hb
    have hw : w = (c!"b", .enum c!"ok") := by revert w; decide
    subst hw
    refine ⟨⟨(Value.enum c!"ok").type, ⟨?_, ?_⟩, by unfold FitsType; decide⟩, rfl⟩
    · rintro ty ⟨f, hf, e, he, h1, rfl⟩
      have : ∀ f ∈ exTraces, ∀ e ∈ eventsOf f, e.channel.name = c!"b" → e.value.type = (Value.enum c!"ok").type := by decide
      rw [this f hf e he h1]
      exact .inl rfl
    · intro u hu
      exact hu _ ⟨exTraces[0], by simp [exTraces], ⟨⟨c!"b", .out⟩, .enum c!"ok"⟩, by simp [exTraces, eventsOf], rfl, rfl⟩) [c!"more"] [] 6 6
    (fun h => absurd h (by decide)) (by decide) (Nat.le_refl 6)
  exact ⟨st', k3.2 (by decide), k4⟩

end Rtcg
