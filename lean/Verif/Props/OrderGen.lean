import Verif.Proofs.OrderText
import Verif.Props.CppTrace
import Verif.Props.Order

/-
C114: what rtcg-gen leaves on disk does not depend on the order in which Go visits maps.
-/

namespace Rtcg

open Spec Order

/-- A run of rtcg-gen on a suite in which no file is written twice, and none that is read as conversion code is written: the names of the
tests are plain, no variant is configured twice, and the conversion code is outside the output directory. -/
structure Spec.PlainRun (T : TextLayer) (env : Env) (clean : Bool) (output config : Str) (suite : StmSuite) : Prop where
  names : PlainNames suite
  config : ∀ fs cfg, Gen.maybeClean env.cwd env.fs clean (cleanPath output) = (fs, .ok ()) →
    Program.loadConfig T env.cwd fs (cleanPath config) = .ok cfg → (cfg.cpps.map (·.variant)).Nodup ∧
    ∀ c ∈ cfg.cpps, needsConversion suite c → ¬ Inside (locate env.cwd output) (locate env.cwd cfg.directory ++ conversionFile c)

/-- What a run makes of a suite, in any order. -/
theorem may_gen_given {T : TextLayer} {env : Env} {clean : Bool} {output : Str} {argv : List Str} {config : Str} {j : Json} {suite : StmSuite}
    {out : Fs × Res Unit} (hg : GivenJson T env argv config j suite) : MayGenMain T env clean output argv out ↔
      match Gen.maybeClean env.cwd env.fs clean (cleanPath output) with
      | (fs, .error e) => out = (fs, .error e)
      | (fs, .ok ()) =>
        match Program.loadConfig T env.cwd fs (cleanPath config) with
        | .error e => out = (fs, .error e)
        | .ok cfg => ∃ ops, MayOps cfg (cleanPath output) suite ops ∧ out = Templates.runRead (Json.missing j) env.cwd fs ops := by
  obtain ⟨input, text, ha, h1, h2, h3⟩ := hg
  have hs := Run.readSuite_iff.2 ⟨text, j, h1, h2, h3, rfl⟩
  unfold MayGenMain
  rw [C53_genArgs]
  rcases ha with ⟨rfl, rfl⟩ | rfl
  · simp only [hs]; exact Iff.rfl
  · simp only [hs]; exact Iff.rfl

/-- Every order against the order of the suite. -/
theorem may_gen {T : TextLayer} {env : Env} {clean : Bool} {output : Str} {argv : List Str} {config : Str} {suite : StmSuite}
    {out : Fs × Res Unit} (hg : GivenSuite T env argv config suite) (hp : PlainRun T env clean output config suite)
    (h : MayGenMain T env clean output argv out) :
    (out.2 = .ok () ↔ (Program.gen T env clean output argv).2 = .ok ()) ∧
    (out.2 = .ok () → ∀ fs, Program.gen T env clean output argv = (fs, .ok ()) → out.1.isDir = fs.isDir ∧
      ∀ a, out.1.file a = fs.file a ∨ ∃ k k', fs.file a = some k ∧ out.1.file a = some k' ∧
        (Make.lines (T.text k)).Perm (Make.lines (T.text k')) ∧ (T.text k' = T.text k ∨ ∃ v, ∃ nt ∈ suite.tests,
          2 ≤ (GoSet.values nt.2.tests).length ∧ a = locate env.cwd output ++ [v, c!"src", nt.1, c!"src", c!"main.cpp"])) := by
  obtain ⟨j, hj⟩ := hg.json
  obtain ⟨_, _, _, _, _, hd⟩ := id hj
  obtain ⟨hwt, hwf, hms⟩ := Json.decodeStmSuite_maps hd
  rw [may_gen_given hj] at h
  rw [Run.gen_given hj]
  cases hm : Gen.maybeClean env.cwd env.fs clean (cleanPath output) with
  | mk fs r =>
    cases r with
    | error e =>
      rw [hm] at h
      simp only at h ⊢
      subst h
      exact ⟨Iff.rfl, fun h => by cases h⟩
    | ok u =>
      cases u
      rw [hm] at h
      simp only at h ⊢
      unfold Program.generate
      cases hl : Program.loadConfig T env.cwd fs (cleanPath config) with
      | error e =>
        rw [hl] at h
        simp only at h ⊢
        subst h
        exact ⟨Iff.rfl, fun h => by cases h⟩
      | ok cfg =>
        rw [hl] at h
        simp only at h ⊢
        obtain ⟨ops, hops, rfl⟩ := h
        obtain ⟨hv, hsrc⟩ := hp.config fs cfg hm hl
        have hvar : ∀ c ∈ cfg.cpps, c.variant = .animate ∨ c.variant = .ros := by
          intro c hc
          obtain ⟨file, raw, _, hs, hcpp, _⟩ := (C93_load T env.cwd fs (cleanPath config) cfg).1 hl
          rw [hcpp] at hc
          exact ((ConfigSay.says_fits hs).cpps c hc).variant
        rw [← locate_cleanPath] at hsrc
        obtain ⟨g1, g2⟩ := gen_to (missing := Json.missing j) (fs := fs) hp.names hwt hsrc hops
        refine ⟨g1, fun ho fs0 h0 => ?_⟩
        obtain ⟨d1, d2⟩ := g2 fs0 _ hwf hv h0 (Prod.ext rfl ho)
        refine ⟨d1, fun a => ?_⟩
        rcases d2 a with e | ⟨k, k', e1, e2, e3, p, rfl, e4⟩
        · exact .inl e
        · refine .inr ⟨k, k', e1, e2, ?_⟩
          have hex := (runRead_ok_iff.1 h0).2.1 p k e4
          have hmem : (Op.write p k).resolve env.cwd ∈ lmk env.cwd cfg (cleanPath output) suite ++ lwr env.cwd cfg (cleanPath output) suite := by
            rw [← ops_resolve]; exact List.mem_map_of_mem e4
          simp only [Op.resolve] at hmem
          rcases List.mem_append.1 hmem with hmem | hmem
          · obtain ⟨_, _, e⟩ := lmk_inside _ _ _ hp.names hmem
            cases e
          · obtain ⟨c, hc, ⟨_, e⟩ | ⟨rc, hrc, e⟩⟩ := (mem_lwr _ _ _ hp.names _).1 hmem
            · cases e
            · simp only [LOp.write.injEq] at e
              obtain ⟨e, rfl⟩ := e
              obtain ⟨t1, t2⟩ := text_to T (hvar c hc) hwt hms hrc hex e3
              refine ⟨t1, t2.imp id ?_⟩
              rintro ⟨nt, hnt, h2, hr⟩
              refine ⟨c.variant.string, nt, hnt, h2, ?_⟩
              rw [e, hr, vdir, locate_cleanPath]
              simp

/-- C114: whether rtcg-gen succeeds does not depend on the orders in which it visits maps. -/
theorem C114_success (T : TextLayer) (env : Env) (clean : Bool) (output : Str) (argv : List Str) (out out' : Fs × Res Unit)
    (hp : ∀ config suite, GivenSuite T env argv config suite → PlainRun T env clean output config suite)
    (h : MayGenMain T env clean output argv out) (h' : MayGenMain T env clean output argv out') : out.2 = .ok () ↔ out'.2 = .ok () := by
  by_cases hg : ∃ config suite, GivenSuite T env argv config suite
  · obtain ⟨config, suite, hg⟩ := hg
    exact (may_gen hg (hp _ _ hg) h).1.trans (may_gen hg (hp _ _ hg) h').1.symm
  · have hno : ∀ config suite, ¬ GivenSuite T env argv config suite := fun config suite h => hg ⟨config, suite, h⟩
    have key : ∀ o, MayGenMain T env clean output argv o → o.2 ≠ .ok () := by
      intro o ho hok
      unfold MayGenMain at ho
      cases hc : Cli.genArgs argv with
      | error e => rw [hc] at ho; simp only at ho; subst ho; cases hok
      | ok ic =>
        obtain ⟨input, config⟩ := ic
        rw [hc] at ho
        simp only at ho
        cases hs : Program.readSuite T env (cleanPath input) with
        | error e => rw [hs] at ho; simp only at ho; subst ho; cases hok
        | ok sm =>
          obtain ⟨suite, mis⟩ := sm
          obtain ⟨text, j, r1, r2, r3, _⟩ := Run.readSuite_iff.1 hs
          refine hno config suite ⟨input, text, j, ?_, r1, r2, r3⟩
          rw [C53_genArgs] at hc
          match argv, hc with
          | [a], hc => cases hc; exact .inl ⟨rfl, rfl⟩
          | [a, b], hc => cases hc; exact .inr rfl
    exact ⟨fun e => absurd e (key _ h), fun e => absurd e (key _ h')⟩

/-- C114: nor do the directories and files that a successful run leaves, nor the lines of these files; and their text depends on them only
where it is the main.cpp of a machine of two or more tests. -/
theorem C114_files (T : TextLayer) (env : Env) (clean : Bool) (output : Str) (argv : List Str) (config : Str) (suite : StmSuite)
    (out out' : Fs × Res Unit) (hg : GivenSuite T env argv config suite) (hp : PlainRun T env clean output config suite)
    (h : MayGenMain T env clean output argv out) (h' : MayGenMain T env clean output argv out') (hok : out.2 = .ok ()) :
    out'.1.isDir = out.1.isDir ∧ (∀ a, out.1.file a = none ↔ out'.1.file a = none) ∧
    ∀ a t, HasText T out.1 a t → ∃ t', HasText T out'.1 a t' ∧ (Make.lines t).Perm (Make.lines t') ∧
      (t' ≠ t → ∃ v name m, (name, m) ∈ suite.tests ∧ 2 ≤ (GoSet.values m.tests).length ∧
        a = locate env.cwd output ++ [v, c!"src", name, c!"src", c!"main.cpp"]) := by
  obtain ⟨g1, g2⟩ := may_gen hg hp h
  obtain ⟨g1', g2'⟩ := may_gen hg hp h'
  have hgen := g1.1 hok
  obtain ⟨d1, f1⟩ := g2 hok _ (Prod.ext rfl hgen)
  obtain ⟨d2, f2⟩ := g2' (g1'.2 hgen) _ (Prod.ext rfl hgen)
  refine ⟨d2.trans d1.symm, fun a => ?_, fun a t => ?_⟩
  · have e : ∀ {x y : Option Content} {Q : Content → Content → Prop}, (x = y ∨ ∃ k k', y = some k ∧ x = some k' ∧ Q k k') → (x = none ↔ y = none) := by
      rintro x y Q (rfl | ⟨k, k', rfl, rfl, _⟩)
      · rfl
      · simp
    exact (e (f1 a)).trans (e (f2 a)).symm
  · rintro ⟨k, hk, rfl⟩
    have hf1 := f1 a
    have hf2 := f2 a
    generalize hx : (Program.gen T env clean output argv).1.file a = x at hf1 hf2
    rw [hk] at hf1
    have d := fun (t : Str) => (Classical.em (∃ v, ∃ nt ∈ suite.tests,
          2 ≤ (GoSet.values nt.2.tests).length ∧ a = locate env.cwd output ++ [v, c!"src", nt.1, c!"src", c!"main.cpp"]))
    have base : ∃ k0, x = some k0 ∧ (Make.lines (T.text k0)).Perm (Make.lines (T.text k)) ∧ (T.text k = T.text k0 ∨ ∃ v, ∃ nt ∈ suite.tests,
          2 ≤ (GoSet.values nt.2.tests).length ∧ a = locate env.cwd output ++ [v, c!"src", nt.1, c!"src", c!"main.cpp"]) := by
      rcases hf1 with e | ⟨k0, k1, e0, e1, l, r⟩
      · exact ⟨k, e.symm, List.Perm.refl _, .inl rfl⟩
      · cases e1; exact ⟨k0, e0, l, r⟩
    obtain ⟨k0, rfl, l0, r0⟩ := base
    have base' : ∃ k', out'.1.file a = some k' ∧ (Make.lines (T.text k0)).Perm (Make.lines (T.text k')) ∧ (T.text k' = T.text k0 ∨ ∃ v, ∃ nt ∈ suite.tests,
          2 ≤ (GoSet.values nt.2.tests).length ∧ a = locate env.cwd output ++ [v, c!"src", nt.1, c!"src", c!"main.cpp"]) := by
      rcases hf2 with e | ⟨k1, k', e0, e1, l, r⟩
      · exact ⟨k0, e, List.Perm.refl _, .inl rfl⟩
      · cases e0; exact ⟨k', e1, l, r⟩
    obtain ⟨k', e', l', r'⟩ := base'
    refine ⟨_, ⟨k', e', rfl⟩, l0.symm.trans l', fun hne => ?_⟩
    have : ∃ v, ∃ nt ∈ suite.tests, 2 ≤ (GoSet.values nt.2.tests).length ∧
        a = locate env.cwd output ++ [v, c!"src", nt.1, c!"src", c!"main.cpp"] := by
      rcases r0 with e0 | r0
      · rcases r' with e1 | r'
        · exact absurd (e1.trans e0.symm) hne
        · exact r'
      · exact r0
    obtain ⟨v, ⟨name, m⟩, hnt, h2, e⟩ := this
    exact ⟨v, name, m, hnt, h2, e⟩

/-- C114: so if every machine is that of a single test, then a successful run leaves the same texts whatever the orders. -/
theorem C114_one_test (T : TextLayer) (env : Env) (clean : Bool) (output : Str) (argv : List Str) (config : Str) (suite : StmSuite)
    (out out' : Fs × Res Unit) (hg : GivenSuite T env argv config suite) (hp : PlainRun T env clean output config suite)
    (hone : ∀ name m, (name, m) ∈ suite.tests → (GoSet.values m.tests).length ≤ 1)
    (h : MayGenMain T env clean output argv out) (h' : MayGenMain T env clean output argv out') (hok : out.2 = .ok ()) :
    out'.2 = .ok () ∧ out'.1.isDir = out.1.isDir ∧ ∀ a t, HasText T out.1 a t ↔ HasText T out'.1 a t := by
  have half : ∀ {o o' : Fs × Res Unit}, MayGenMain T env clean output argv o → MayGenMain T env clean output argv o' → o.2 = .ok () →
      ∀ a t, HasText T o.1 a t → HasText T o'.1 a t := by
    intro o o' h h' hok a t ht
    obtain ⟨t', ht', _, hne⟩ := (C114_files T env clean output argv config suite o o' hg hp h h' hok).2.2 a t ht
    by_cases e : t' = t
    · rw [← e]; exact ht'
    · obtain ⟨_, name, m, hm, h2, _⟩ := hne e
      have := hone name m hm
      omega
  have hok' : out'.2 = .ok () := (may_gen hg hp h').1.2 ((may_gen hg hp h).1.1 hok)
  exact ⟨hok', (C114_files T env clean output argv config suite out out' hg hp h h' hok).1,
    fun a t => ⟨half h h' hok a t, half h' h hok' a t⟩⟩

theorem stmTo_refl (m : Stm) : StmTo m m :=
  ⟨List.forall₂_same.2 fun _ _ => ⟨rfl, rfl, List.Perm.refl _⟩, List.Perm.refl _, List.Perm.refl _⟩

theorem suiteTo_refl (s : StmSuite) : SuiteTo s s :=
  ⟨List.Perm.refl _, _, List.Perm.refl _, List.forall₂_same.2 fun _ _ => ⟨rfl, stmTo_refl _⟩⟩

theorem may_ops {cfg : GenConfig} {output : Str} {suite suite' : StmSuite} (h : SuiteTo suite suite') :
    MayOps cfg output suite (Gen.ops cfg output suite') := by
  refine ⟨cfg.cpps.map (Gen.mkdirOps ⟨cfg.directory, output⟩ suite'), cfg.cpps.map (Gen.writeOps ⟨cfg.directory, output⟩ suite'), ?_, ?_, ?_⟩
  · rw [List.forall₂_map_right_iff]
    exact List.forall₂_same.2 fun c _ => ⟨suite', h, rfl⟩
  · rw [List.forall₂_map_right_iff]
    refine List.forall₂_same.2 fun c _ => ⟨suite', suite', suite',
      CppGen.generateTests ((Gen.variantDirs ⟨cfg.directory, output⟩ c).subdir c!"src") c.variant (c.process suite'.types) suite',
      Gen.writeOps ⟨cfg.directory, output⟩ suite' c, h, h, h, ?_, rfl, ?_⟩
    · unfold CppGen.generateTests
      rw [List.forall₂_map_right_iff]
      exact List.forall₂_same.2 fun nt _ => ⟨_, may_transitions _, rfl⟩
    · exact opTo_refl _
  · rw [Gen.ops, List.flatMap_def, List.flatMap_def]

/-- C114, not vacuous: the run that the rest of the model describes is one of those. -/
theorem C114_possible (T : TextLayer) (env : Env) (clean : Bool) (output : Str) (argv : List Str) :
    MayGenMain T env clean output argv (Program.gen T env clean output argv) := by
  unfold MayGenMain Program.gen Program.genAction Program.generate
  cases Cli.genArgs argv with
  | error e => rfl
  | ok ic =>
    obtain ⟨input, config⟩ := ic
    simp only
    cases Program.readSuite T env (cleanPath input) with
    | error e => rfl
    | ok sm =>
      obtain ⟨suite, mis⟩ := sm
      simp only
      cases Gen.maybeClean env.cwd env.fs clean (cleanPath output) with
      | mk fs r =>
        cases r with
        | error e => rfl
        | ok u =>
          cases u
          simp only
          cases Program.loadConfig T env.cwd fs (cleanPath config) with
          | error e => rfl
          | ok cfg => exact ⟨_, may_ops (suiteTo_refl suite), rfl⟩

/-! ### the script -/

theorem may_gen_eof {T : TextLayer} {env : Env} {clean : Bool} {output config : Str} {out : Fs × Res Unit} (he : env.stdin = [])
    (h : MayGenMain T env clean output [config, c!"-"] out) : out.2 ≠ .ok () := by
  unfold MayGenMain at h
  rw [C53_genArgs] at h
  simp only at h
  have hs : Program.readSuite T env (cleanPath c!"-") = throwErr .eof := by
    rw [show cleanPath c!"-" = c!"-" by decide]
    unfold Program.readSuite Program.readFileOrStdin
    rw [if_pos rfl, he]
    simp only [Run.parse_nil, throwErr]
  rw [hs] at h
  simp only [throwErr] at h
  subst h
  intro e; cases e

theorem may_script {T : TextLayer} {env : Env} {config trace : Str} (hc : config.head? ≠ some '-') {out : Fs × Nat}
    (h : MayScript T env config trace out) (h0 : out.2 = 0) :
    ∃ tests stms o, Program.readTraces T env [c!"./bin/rtcg-read-traces", trace] = (tests, .ok ()) ∧
      MayMakeStmsMain T { env with stdin := tests } [c!"./bin/rtcg-make-stms", c!"-"] (stms, .ok ()) ∧
      MayGenMain T { env with stdin := stms } false c!"out" [config, c!"-"] o ∧ o.2 = .ok () ∧ out.1 = o.1 := by
  obtain ⟨r1, r2, h1, h2, h3⟩ := h
  unfold MayGenCommand at h3
  rw [Run.end_ok (.word hc)] at h3
  obtain ⟨o, h3, rfl⟩ := h3
  have ho : o.2 = .ok () := Run.exitCode_zero.1 h0
  have e2 : r2.2 = .ok () := by
    refine Classical.byContradiction fun hn => ?_
    have := (C113_make_stms T _ _ r2 r2 h2 h2).2.1 hn
    exact may_gen_eof this h3 ho
  have e1 := (C113_read_traces T env _ _).1 h1
  have e1' : r1.2 = .ok () := by
    refine Classical.byContradiction fun hn => ?_
    have hnil : r1.1 = [] := by
      rw [e1] at hn ⊢
      exact (C84_read_traces T env _).1 hn
    unfold MayMakeStmsMain MayRun at h2
    rw [Programs.arg_iff.2 (.inr ⟨_, rfl⟩)] at h2
    simp only [Program.readFileOrStdin, if_true, hnil, Run.parse_nil, throwErr] at h2
    obtain ⟨r, rfl, rfl⟩ := h2
    cases e2
  refine ⟨r1.1, r2.1, o, ?_, ?_, h3, ho, rfl⟩
  · rw [← e1]; exact Prod.ext rfl e1'
  · rw [← e2]; exact h2

/-- C114: the whole script.  On a good traces file, if rtcg.sh ends with exit code 0 for some orders in which its three programs visit their
maps, it does so for all of them, and leaves the same directories and the same texts. -/
theorem C114_script (T : TextLayer) (env : Env) (config trace file : Str) (traces : List Forbidden) (cfg : GenConfig)
    (hc : config.head? ≠ some '-') (hr : Reads T env trace file) (h : Forbidden.read file = some (.ok traces))
    (hev : ∀ f ∈ traces, ∀ e ∈ eventsOf f, e.channel.name ≠ [] ∧ e.value ≠ .none)
    (hty : ¬ ∃ chan, Conflict (fun ty => ∃ f ∈ traces, TraceCarries f chan ty))
    (hpl : ∀ f ∈ traces, f.name = [] ∨ Plain f.name)
    (hcfg : Program.loadConfig T env.cwd env.fs (cleanPath config) = .ok cfg) (hv : (cfg.cpps.map (·.variant)).Nodup)
    (hsrc : ∀ c ∈ cfg.cpps, ¬ Inside (locate env.cwd c!"out") (locate env.cwd cfg.directory ++ conversionFile c))
    (out out' : Fs × Nat) (hm : MayScript T env config trace out) (hm' : MayScript T env config trace out') (h0 : out.2 = 0) :
    out'.2 = 0 ∧ out'.1.isDir = out.1.isDir ∧ ∀ a t, HasText T out.1 a t ↔ HasText T out'.1 a t := by
  obtain ⟨tests, stms, o, h1, h2, h3, h4, h5⟩ := may_script hc hm h0
  have hread := (C113_read_traces T env _ _).2 h1.symm
  have same : ∀ r, MayMakeStmsMain T { env with stdin := tests } [c!"./bin/rtcg-make-stms", c!"-"] r → r = (stms, .ok ()) := fun r hr' =>
    C113_pipeline T env _ _ trace file traces tests (stms, .ok ()) r (.inr ⟨_, rfl⟩) (.inr ⟨_, rfl⟩) hr h
      (fun f hf e he => (hev f hf e he).1) hread h2 hr' rfl
  have hmk := same _ (C113_possible T { env with stdin := tests } [c!"./bin/rtcg-make-stms", c!"-"])
  obtain ⟨j1, j2, suite, named, e1, e2, e3, e4, e5, e6, e7⟩ := C57_pipeline file traces h hev hty
  obtain ⟨_, file', j1', ha, hr', _, hj1, hw1⟩ := ((C84_read_traces T env _).2 tests).1 h1
  rcases ha with ⟨_, ha, _⟩ | ⟨_, ha⟩
  · simp at ha
  cases ha
  rw [← Programs.reads_iff] at hr hr'
  rw [hr] at hr'; cases hr'
  rw [e1] at hj1; cases hj1
  obtain ⟨_, text2, input, j2', ha, hr2, hp2, _, hj2, hw2⟩ := ((C84_make_stms T _ _).2 stms).1 hmk
  rcases ha with ⟨_, ha, _⟩ | ⟨_, ha⟩
  · simp at ha
  cases ha
  have htx : text2 = tests := by
    rcases hr2 with ⟨_, e⟩ | ⟨hx, _⟩
    · exact e
    · exact absurd rfl hx
  rw [htx] at hp2
  have hb1 := C85_read_back j1 tests [] (C85_programs.1 _ _ e1) hw1
  rw [List.append_nil] at hb1
  rw [hb1] at hp2; cases hp2
  rw [e2] at hj2; cases hj2
  have hb2 := C85_read_back j2 stms [] (C85_programs.2 _ _ e2).1 hw2
  rw [List.append_nil] at hb2
  have hg : GivenSuite T { env with stdin := stms } [config, c!"-"] config suite :=
    ⟨c!"-", stms, j2, .inr rfl, .inl ⟨by decide, rfl⟩, hb2, e3⟩
  obtain ⟨w1, w2, w3⟩ := Json.decodeStmSuite_maps e3
  have hfrom : ∀ k m, (k, m) ∈ suite.tests → ∃ f, (k, f) ∈ named ∧ GoSet.values m.tests = [k] := by
    intro k m hk
    have hk := GoMap.get?_of_mem w2 hk
    have := e5 k
    rw [hk] at this
    obtain ⟨f', hf'⟩ := Option.isSome_iff_exists.1 this.symm
    exact ⟨f', GoMap.mem_of_get? hf', (e6 k f' m hf' hk).2.2⟩
  have hp : PlainRun T { env with stdin := stms } false c!"out" config suite := by
    refine ⟨?_, ?_⟩
    · rintro ⟨k, m⟩ hk
      obtain ⟨f, hf, _⟩ := hfrom k m hk
      exact nameAll_plain e4 hpl _ hf
    · intro fs cfg' hcl hl
      simp only [Gen.maybeClean, Bool.not_false, if_true, Prod.mk.injEq, and_true] at hcl
      subst hcl
      rw [show Program.loadConfig T ({ env with stdin := stms } : Env).cwd ({ env with stdin := stms } : Env).fs (cleanPath config) =
        .ok cfg from hcfg] at hl
      cases hl
      exact ⟨hv, fun c hc _ => hsrc c hc⟩
  have hone : ∀ name m, (name, m) ∈ suite.tests → (GoSet.values m.tests).length ≤ 1 := by
    intro k m hk
    obtain ⟨_, _, e⟩ := hfrom k m hk
    rw [e]; exact Nat.le_refl 1
  obtain ⟨r1, r2, m1, m2, m3⟩ := hm'
  have x1 := (C113_read_traces T env _ _).1 m1
  rw [h1] at x1
  subst x1
  have x2 := same _ m2
  subst x2
  unfold MayGenCommand at m3
  rw [Run.end_ok (.word hc)] at m3
  obtain ⟨o', m3, rfl⟩ := m3
  obtain ⟨g1, g2, g3⟩ := C114_one_test T { env with stdin := stms } false c!"out" _ config suite o o' hg hp hone h3 m3 h4
  rw [h5]
  exact ⟨Run.exitCode_zero.2 g1, g2, g3⟩

/-- C114, not vacuous: the run of the script that the rest of the model describes is one of those. -/
theorem C114_script_possible (T : TextLayer) (env : Env) (config trace : Str) :
    MayScript T env config trace (Program.script T env [config, trace]) := by
  refine ⟨Program.readTraces T env [c!"./bin/rtcg-read-traces", trace], _, (C113_read_traces _ _ _ _).2 rfl, C113_possible _ _ _, ?_⟩
  have h : ∀ env args, MayGenCommand T env args (Program.genMain T env args) := by
    intro env args
    unfold MayGenCommand Program.genMain
    cases Program.parseFlags ⟨false, c!"out"⟩ args with
    | error code => rfl
    | ok fa => exact ⟨_, C114_possible _ _ _ _ _, rfl⟩
  exact h _ _

/-- The hypotheses of `C114_script` are met. -/
example (out : Fs × Nat) (h : MayScript exBothT ⟨[], exBothFs, []⟩ c!"cfg.xml" c!"traces.csv" out) :
    ∃ fs', Program.script exBothT ⟨[], exBothFs, []⟩ [c!"cfg.xml", c!"traces.csv"] = (fs', 0) ∧ out.2 = 0 ∧ out.1.isDir = fs'.isDir ∧
      ∀ a t, HasText exBothT fs' a t ↔ HasText exBothT out.1 a t := by
  obtain ⟨fs', hs⟩ := exBoth_succeeds
  have hm := C114_script_possible exBothT ⟨[], exBothFs, []⟩ c!"cfg.xml" c!"traces.csv"
  rw [hs] at hm
  exact ⟨fs', hs, C114_script exBothT ⟨[], exBothFs, []⟩ c!"cfg.xml" c!"traces.csv" exFile exTraces exBothCfg (by decide) exBoth_reads exFile_read
    exTraces_events exTraces_types (by decide) exBoth_loads (by decide) (by decide) _ _ hm h rfl⟩

/-! ### what does depend on the order -/

/-- A machine of two tests -/
def exTwoTests : Str :=
  c!"{\"types\": {\"a\": \"int\"}, \"tests\": {\"a\": {\"states\": [{\"id\": \"s\", \"verdicts\": {\"t\": \"pass\"}}], \"tests\": [\"t\", \"u\"]}}}"

/-- Two machines whose files are the same -/
def exSameFile : Str :=
  c!"{\"types\": {\"a\": \"int\"}, \"tests\": {\"a\": {\"states\": [{\"id\": \"s\", \"verdicts\": {\"t\": \"pass\"}}], \"tests\": [\"t\"]}, " ++
  c!"\"./a\": {\"states\": [{\"id\": \"s\", \"verdicts\": {\"u\": \"pass\"}}], \"tests\": [\"u\"]}}}"

def exGenStm (v : Str) (tests : List Str) : Stm := ⟨[⟨c!"s", [], [(v, oPass)]⟩], [], tests.map fun t => (t, true)⟩

def exGenSuite (tests : List (Str × Stm)) : StmSuite := ⟨[(c!"a", some ⟨⟨1⟩, ⟨2⟩⟩)], tests⟩

/-- A run of rtcg-gen on one of these, with its maps in the order of that suite -/
def exGenRun (tests : List (Str × Stm)) : Fs × Res Unit :=
  Templates.runRead (fun _ => none) [] exBothFs (Gen.ops exBothCfg c!"out" (exGenSuite tests))

def exGenMain : Loc := [c!"out", c!"ros", c!"src", c!"a", c!"src", c!"main.cpp"]

def exGenText (out : Fs × Res Unit) : Option Str := (out.1.file exGenMain).map exBothT.text

theorem hasText_ex {out : Fs × Res Unit} {t : Str} (h : exGenText out = some t) : HasText exBothT out.1 exGenMain t := by
  unfold exGenText at h
  cases hf : out.1.file exGenMain with
  | none => rw [hf] at h; cases h
  | some k => rw [hf] at h; exact ⟨k, hf, Option.some.inj h⟩

theorem exRun_may {input : Str} {j : Json} {tests tests' : List (Str × Stm)} (hp : Json.parse input = .ok j)
    (hd : Json.decodeStmSuite j = .ok (exGenSuite tests)) (hmis : ∀ t, Json.missing j t = none) (hs : SuiteTo (exGenSuite tests) (exGenSuite tests')) :
    MayGenMain exBothT ⟨[], exBothFs, input⟩ false c!"out" [c!"cfg.xml"] (exGenRun tests') := by
  have hj : GivenJson exBothT ⟨[], exBothFs, input⟩ [c!"cfg.xml"] c!"cfg.xml" j (exGenSuite tests) :=
    ⟨c!"-", input, .inl ⟨rfl, rfl⟩, .inl ⟨by decide, rfl⟩, hp, hd⟩
  rw [may_gen_given hj]
  simp only [Gen.maybeClean, Bool.not_false, if_true, exBoth_loads]
  refine ⟨_, may_ops hs, ?_⟩
  rw [show Json.missing j = fun _ => none from funext hmis, show cleanPath c!"out" = c!"out" by decide]
  rfl

/-- Two runs that differ -/
theorem exGenRuns {l l' : List (Str × Stm)} (P : List Str → List Str → Prop) (h : ((exGenRun l).2 = .ok () ∧ (exGenRun l').2 = .ok ()) ∧
    (exGenText (exGenRun l)).isSome ∧ (exGenText (exGenRun l')).isSome ∧
    P (Make.lines ((exGenText (exGenRun l)).getD [])) (Make.lines ((exGenText (exGenRun l')).getD []))) :
    (exGenRun l).2 = .ok () ∧ (exGenRun l').2 = .ok () ∧ ∃ t t', HasText exBothT (exGenRun l).1 exGenMain t ∧ HasText exBothT (exGenRun l').1 exGenMain t' ∧
      P (Make.lines t) (Make.lines t') := by
  obtain ⟨⟨h1, h2⟩, h3, h4, h5⟩ := h
  obtain ⟨t, ht⟩ := Option.isSome_iff_exists.1 h3
  obtain ⟨t', ht'⟩ := Option.isSome_iff_exists.1 h4
  rw [ht, ht'] at h5
  exact ⟨h1, h2, t, t', hasText_ex ht, hasText_ex ht', h5⟩

theorem missing_none {j : Json} (h : (match j with
    | .obj fs => (match Json.lastField c!"tests" fs with
      | some (.obj ts) => ts.all fun t => (Json.missingIn t.2).isNone
      | _ => true)
    | _ => true) = true) (t : Str) : Json.missing j t = none := by
  unfold Json.missing
  cases j with
  | obj fs =>
    simp only at h ⊢
    cases hl : Json.lastField c!"tests" fs with
    | none => rfl
    | some v =>
      rw [hl] at h
      cases v with
      | obj ts =>
        simp only at h ⊢
        cases hg : (ts.filter fun x => x.1 = t).getLast? with
        | none => rfl
        | some x =>
          have := List.mem_of_getLast? hg
          exact Option.isNone_iff_eq_none.1 (List.all_eq_true.1 h x (List.mem_filter.1 this).1)
      | _ => rfl
  | _ => rfl

set_option maxRecDepth 200000 in
/-- C114, not more: if a machine is that of two tests, the text of its main.cpp does depend on the order. -/
theorem C114_two_texts : ∃ input out out', MayGenMain exBothT ⟨[], exBothFs, input⟩ false c!"out" [c!"cfg.xml"] out ∧
    MayGenMain exBothT ⟨[], exBothFs, input⟩ false c!"out" [c!"cfg.xml"] out' ∧ out.2 = .ok () ∧ out'.2 = .ok () ∧
    ∃ t t', HasText exBothT out.1 exGenMain t ∧ HasText exBothT out'.1 exGenMain t' ∧ t ≠ t' := by
  obtain ⟨j, hp, hd, hmis⟩ : ∃ j, Json.parse exTwoTests = .ok j ∧ Json.decodeStmSuite j = .ok (exGenSuite [(c!"a", exGenStm c!"t" [c!"t", c!"u"])]) ∧
      ∀ t, Json.missing j t = none := ⟨_, by rfl, by rfl, missing_none (by rfl)⟩
  refine ⟨exTwoTests, exGenRun [(c!"a", exGenStm c!"t" [c!"t", c!"u"])], exGenRun [(c!"a", exGenStm c!"t" [c!"u", c!"t"])],
    exRun_may hp hd hmis (suiteTo_refl _), exRun_may hp hd hmis ?_, ?_⟩
  · refine ⟨List.Perm.refl _, _, List.Perm.refl _, .cons ⟨rfl, ?_⟩ .nil⟩
    exact ⟨List.forall₂_same.2 fun _ _ => ⟨rfl, rfl, List.Perm.refl _⟩, List.Perm.refl _, List.Perm.swap _ _ _⟩
  · obtain ⟨h1, h2, t, t', h3, h4, h5⟩ := exGenRuns (l := [(c!"a", exGenStm c!"t" [c!"t", c!"u"])]) (l' := [(c!"a", exGenStm c!"t" [c!"u", c!"t"])])
      (fun a b => a ≠ b) (by decide +kernel)
    exact ⟨h1, h2, t, t', h3, h4, fun e => h5 (by rw [e])⟩

set_option maxRecDepth 200000 in
/-- C114, not more: if two names denote the same file, then which test it is for does depend on the order.  (So the names in C114 must be plain.) -/
theorem C114_same_file : ∃ input out out', MayGenMain exBothT ⟨[], exBothFs, input⟩ false c!"out" [c!"cfg.xml"] out ∧
    MayGenMain exBothT ⟨[], exBothFs, input⟩ false c!"out" [c!"cfg.xml"] out' ∧ out.2 = .ok () ∧ out'.2 = .ok () ∧
    ∃ t t', HasText exBothT out.1 exGenMain t ∧ HasText exBothT out'.1 exGenMain t' ∧ c!"// Test a" ∈ Make.lines t ∧ c!"// Test a" ∉ Make.lines t' := by
  obtain ⟨j, hp, hd, hmis⟩ : ∃ j, Json.parse exSameFile = .ok j ∧
      Json.decodeStmSuite j = .ok (exGenSuite [(c!"a", exGenStm c!"t" [c!"t"]), (c!"./a", exGenStm c!"u" [c!"u"])]) ∧
      ∀ t, Json.missing j t = none := ⟨_, by rfl, by rfl, missing_none (by rfl)⟩
  refine ⟨exSameFile, exGenRun [(c!"./a", exGenStm c!"u" [c!"u"]), (c!"a", exGenStm c!"t" [c!"t"])],
    exGenRun [(c!"a", exGenStm c!"t" [c!"t"]), (c!"./a", exGenStm c!"u" [c!"u"])],
    exRun_may hp hd hmis ?_, exRun_may hp hd hmis (suiteTo_refl _), ?_⟩
  · exact ⟨List.Perm.refl _, _, List.Perm.swap _ _ _, List.forall₂_same.2 fun _ _ => ⟨rfl, stmTo_refl _⟩⟩
  · exact exGenRuns (fun a b => c!"// Test a" ∈ a ∧ c!"// Test a" ∉ b) (by decide +kernel)

set_option maxRecDepth 200000 in
/-- The hypotheses of `C114_files` are met by the machine of two tests. -/
example : ∃ suite, GivenSuite exBothT ⟨[], exBothFs, exTwoTests⟩ [c!"cfg.xml"] c!"cfg.xml" suite ∧
    PlainRun exBothT ⟨[], exBothFs, exTwoTests⟩ false c!"out" c!"cfg.xml" suite := by
  obtain ⟨j, hp, hd⟩ : ∃ j, Json.parse exTwoTests = .ok j ∧ Json.decodeStmSuite j = .ok (exGenSuite [(c!"a", exGenStm c!"t" [c!"t", c!"u"])]) :=
    ⟨_, by rfl, by rfl⟩
  refine ⟨_, ⟨c!"-", exTwoTests, j, .inl ⟨rfl, rfl⟩, .inl ⟨by decide, rfl⟩, hp, hd⟩, by unfold PlainNames; decide, ?_⟩
  intro fs cfg hcl hl
  simp only [Gen.maybeClean, Bool.not_false, if_true, Prod.mk.injEq, and_true] at hcl
  subst hcl
  rw [exBoth_loads] at hl
  cases hl
  have : ∀ c ∈ exBothCfg.cpps, ¬ Inside (locate [] c!"out") (locate [] exBothCfg.directory ++ conversionFile c) := by decide
  exact ⟨by decide, fun c hc _ => this c hc⟩

end Rtcg
