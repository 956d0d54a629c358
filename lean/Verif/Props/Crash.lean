import Verif.Proofs.Crash

/-
C100: which inputs make the programs panic.
-/

namespace Rtcg

open Spec Spec.JsonForm Program Programs

/-! ### C100 -/

/-- C100: rtcg-read-traces never panics. -/
theorem C100_read_traces (T : TextLayer) (env : Env) (argv : List Str) : (readTraces T env argv).2 ≠ .error .panic :=
  Crash.readTraces_calm T env argv

/-- C100, partly: rtcg-make-stms panics only if a test in its input is `null`, and then it never succeeds. -/
theorem C100_make_stms_partial (T : TextLayer) (env : Env) (argv : List Str) :
    ((makeStms T env argv).2 = .error .panic →
      ∃ path text j test, InputArg argv path ∧ Reads T env path text ∧ Json.parse text = .ok j ∧ NullTest j test) ∧
    ∀ path text j test, InputArg argv path → Reads T env path text → Json.parse text = .ok j → NullTest j test →
      (makeStms T env argv).2 ≠ .ok () := by
  refine ⟨Crash.makeStms_panic, fun path text j test h1 h2 h3 h4 h => ?_⟩
  obtain ⟨path', text', input, out, h1', h2', h3', _, h4', _⟩ := ((C84_make_stms T env argv).2 _).1 (Prod.ext rfl h)
  have e1 := arg_iff.2 h1
  rw [arg_iff.2 h1'] at e1
  cases e1
  have e2 := reads_iff.2 h2
  rw [reads_iff.2 h2'] at e2
  cases e2
  rw [h3] at h3'
  cases h3'
  exact Crash.makeStmsProgram_null h4 _ h4'

/-- C100, partly: rtcg-gen panics only if a machine in its input, or a state of one, is `null`; then it never succeeds if there is
anything to generate. -/
theorem C100_gen_partial (T : TextLayer) (env : Env) (clean : Bool) (output : Str) (argv : List Str) :
    ((gen T env clean output argv).2 = .error .panic →
      ∃ config j suite test, GivenJson T env argv config j suite ∧ NullMachine j test) ∧
    ∀ config j suite test, GivenJson T env argv config j suite → StmSuiteOnce j → NullMachine j test →
      (∀ fs cfg, loadConfig T env.cwd fs (cleanPath config) = .ok cfg → cfg.cpps ≠ []) →
      (gen T env clean output argv).2 ≠ .ok () := by
  refine ⟨Crash.gen_panic, fun config j suite test hg ho hn hc h => ?_⟩
  rw [Run.gen_given hg] at h
  obtain ⟨_, _, _, _, _, hd⟩ := hg
  have hkey : ∃ m, (test, m) ∈ suite.tests := by
    obtain ⟨fs, ts, m, rfl, h1, h2, _⟩ := id hn
    rcases JsonForm.stmSuite_sound ho hd with ⟨e, _⟩ | ⟨_, e, _, hf⟩
    · cases e
    · cases e
      rcases hf with ⟨hno, _⟩ | ⟨v, hv, hs⟩
      · obtain ⟨pre, key, post, rfl, hk, _⟩ := h1
        exact absurd hk (hno (key, .obj ts) (by simp))
      · rw [JsonForm.last_unique hv h1] at hs
        rcases hs with ⟨e, _⟩ | ⟨_, e, _, _, hin, _⟩
        · cases e
        · cases e
          obtain ⟨pre, _, post, rfl, rfl, _⟩ := h2
          exact hin _ (List.mem_append_right _ (List.mem_cons_self ..))
  obtain ⟨m, hm⟩ := hkey
  rcases hcl : Gen.maybeClean env.cwd env.fs clean (cleanPath output) with ⟨fs1, e | _⟩
  · rw [hcl] at h; cases h
  · rw [hcl] at h
    simp only at h
    unfold generate at h
    cases hl : loadConfig T env.cwd fs1 (cleanPath config) with
    | error e => rw [hl] at h; cases h
    | ok cfg =>
      rw [hl] at h
      simp only at h
      obtain ⟨c, hcm⟩ := List.exists_mem_of_ne_nil _ (hc fs1 cfg hl)
      have h2 := (Templates.runRead_ok (Prod.ext rfl h)).2
      have hop : ∃ p v tc ctx, Op.write p (.mainCpp v test m tc ctx) ∈ Gen.ops cfg (cleanPath output) suite := by
        refine ⟨joinPath [((((Gen.variantDirs ⟨cfg.directory, cleanPath output⟩ c).subdir c!"src").subdir test).output), c!"src", c!"main.cpp"], c.variant,
          TransitionContext.make m, c.process suite.types, ?_⟩
        unfold Gen.ops
        refine List.mem_append_right _ (List.mem_flatMap.2 ⟨c, hcm, ?_⟩)
        unfold Gen.writeOps
        refine List.mem_append_left _ (List.mem_append_left _ ?_)
        exact List.mem_append_right _ (List.mem_map.2 ⟨(test, m), hm, rfl⟩)
      obtain ⟨p, v, tc, ctx, hop⟩ := hop
      have := h2 _ _ _ _ _ _ hop
      rw [Crash.missing_iff.2 hn] at this
      cases this

/-- C100: run by the script, none of the three programs panics. -/
theorem C100_script (T : TextLayer) (env : Env) (config trace tests stms : Str) (r1 r2 : Res Unit)
    (h1 : readTraces T env [c!"./bin/rtcg-read-traces", trace] = (tests, r1))
    (h2 : makeStms T { env with stdin := tests } [c!"./bin/rtcg-make-stms", c!"-"] = (stms, r2)) :
    r1 ≠ .error .panic ∧ r2 ≠ .error .panic ∧ ∀ flags argv, parseFlags ⟨false, c!"out"⟩ [config, c!"-"] = .ok (flags, argv) →
      (gen T { env with stdin := stms } flags.clean flags.output argv).2 ≠ .error .panic := by
  refine ⟨fun e => C100_read_traces T env _ (by rw [h1]; exact e), fun e => ?_, fun flags argv hf e => ?_⟩
  · obtain ⟨path, text, j, test, ha, hr, hp, hn⟩ := (C100_make_stms_partial T _ _).1 (by rw [h2]; exact e)
    have hpath : path = c!"-" := by
      rcases ha with ⟨_, e, _⟩ | ⟨_, e⟩
      · cases e
      · cases e; rfl
    subst hpath
    have htext : text = tests := by
      have := reads_iff.2 hr
      cases this; rfl
    subst htext
    by_cases hok : r1 = .ok ()
    · subst hok
      obtain ⟨_, file, j1, _, _, _, hj, hw⟩ := ((C84_read_traces T env _).2 text).1 h1
      have := C85_read_back j1 text [] (C85_programs.1 _ _ hj) hw
      rw [List.append_nil, hp] at this
      cases this
      exact Crash.readTraces_null hj test hn
    · have := (C84_read_traces T env [c!"./bin/rtcg-read-traces", trace]).1 (by rw [h1]; exact hok)
      rw [h1] at this
      simp only at this
      subst this
      cases hp
  · obtain ⟨config', j, suite, test, ⟨input, text, ha, hr, hp, hd⟩, hn⟩ := (C100_gen_partial T _ _ _ _).1 e
    have hin : cleanPath input = c!"-" := by
      rcases Run.flags_two _ _ _ _ hf with rfl | rfl | rfl
      all_goals
        rcases ha with ⟨e1, rfl⟩ | e1
        all_goals first | (cases e1; done) | (cases e1; decide) | decide
    rw [hin] at hr
    have htext : text = stms := by
      have := reads_iff.2 hr
      cases this; rfl
    subst htext
    by_cases hok : r2 = .ok ()
    · subst hok
      obtain ⟨_, _, i, j2, _, _, _, _, hj, hw⟩ := ((C84_make_stms T _ _).2 text).1 h2
      have := C85_read_back j2 text [] (C85_programs.2 _ _ hj).1 hw
      rw [List.append_nil, hp] at this
      cases this
      have hm := Crash.missing_iff.2 hn
      rw [Json.makeStms_has hj] at hm
      cases hm
    · have := (C84_make_stms T { env with stdin := tests } [c!"./bin/rtcg-make-stms", c!"-"]).1 (by rw [h2]; exact hok)
      rw [h2] at this
      simp only at this
      subst this
      cases hp

/-- The property is false: `{"a": null}` makes rtcg-make-stms panic. -/
theorem C100_false_make_stms (T : TextLayer) (cwd : Loc) (fs : Fs) :
    makeStms T ⟨cwd, fs, c!"{\"a\": null}"⟩ [c!"rtcg-make-stms"] = ([], .error .panic) := by
  have hp : Json.parse c!"{\"a\": null}" = .ok (.obj [(c!"a", .null)]) := by rfl
  unfold makeStms
  rw [show Cli.parseFileArgument [c!"rtcg-make-stms"] 2 = .ok c!"-" from rfl]
  simp only [readFileOrStdin, if_true, hp]
  rfl

/-- A directory with a configuration of a harness and the conversion code it needs. -/
def crashFs : Fs := ⟨fun a => decide (a = []), fun a =>
  if a = [c!"cfg.xml"] then some (.user c!"<rtcg-gen><cpp variant=\"animate\"><channel name=\"x\" type=\"T\"/></cpp></rtcg-gen>")
  else if a = [c!"animate", c!"src", c!"convert", c!"convert.cpp"] then some (.user c!"code") else none⟩

/-- Machines for a test without one. -/
def crashInput : Str := c!"{\"types\": {\"x\": \"int\"}, \"tests\": {\"a\": null}}"

/-- The property is false: a machine that is `null` makes rtcg-gen panic; its exit code is 2. -/
theorem C100_false_gen : ∃ T : TextLayer, (gen T ⟨[], crashFs, crashInput⟩ false c!"out" [c!"cfg.xml"]).2 = .error .panic ∧
    (genMain T ⟨[], crashFs, crashInput⟩ [c!"cfg.xml"]).2 = 2 := by
  refine ⟨⟨⟨fun _ => false, fun _ => false⟩, ⟨id, id, fun _ => false, fun _ => false⟩, []⟩, by decide +kernel, by decide +kernel⟩

theorem exitCode_two {r : Res Unit} (h : exitCode r = 2) : r = .error .panic := by
  match r with
  | .ok _ => cases h
  | .error (.err _) => cases h
  | .error .panic => rfl

/-- A test and a machine may be `null` only in what a user wrote: the exit code of the script is 2 only if its first argument is a bad
flag. -/
theorem C100_script_exit (T : TextLayer) (env : Env) (args : List Str) (fs' : Fs) (h : script T env args = (fs', 2)) :
    ∃ config trace, (args = [config] ∨ args = [config, trace]) ∧ parseFlags ⟨false, c!"out"⟩ [config, c!"-"] = .error 2 := by
  have key : ∀ config trace, pipeline T env config trace = (fs', 2) → parseFlags ⟨false, c!"out"⟩ [config, c!"-"] = .error 2 := by
    intro config trace h
    unfold pipeline at h
    simp only at h
    unfold genMain at h
    cases hf : parseFlags ⟨false, c!"out"⟩ [config, c!"-"] with
    | error code =>
      rw [hf] at h
      simp only [Prod.mk.injEq] at h
      rw [h.2]
    | ok r =>
      obtain ⟨flags, argv⟩ := r
      rw [hf] at h
      simp only [Prod.mk.injEq] at h
      have := (C100_script T env config trace _ _ _ _ rfl rfl).2.2 flags argv hf
      have h := h.2
      exact absurd (exitCode_two h) this
  match args, h with
  | [config], h => exact ⟨config, c!"-", .inl rfl, key config _ h⟩
  | [config, trace], h => exact ⟨config, trace, .inr rfl, key config trace h⟩
  | [], h => cases h
  | _ :: _ :: _ :: _, h => cases h

end Rtcg
