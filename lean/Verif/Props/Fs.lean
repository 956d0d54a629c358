import Verif.Proofs.FsGen

/-
C49–C53, C65–C67: what generation does to the file system, cleaning, command lines.
-/

namespace Rtcg

open Spec

/-! ### the operations of a generation, resolved -/

section
variable (cwd : Loc) (cfg : GenConfig) (out : Str) (suite : StmSuite)

/-- The directories of the generator. -/
abbrev gdirs : DirSet := ⟨cfg.directory, out⟩

/-- Directory operations, resolved. -/
def lmk : List LOp := (cfg.cpps.flatMap (Gen.mkdirOps (gdirs cfg out) suite)).map (Op.resolve cwd)

/-- File operations, resolved. -/
def lwr : List LOp := (cfg.cpps.flatMap (Gen.writeOps (gdirs cfg out) suite)).map (Op.resolve cwd)

theorem ops_resolve : (Gen.ops cfg out suite).map (Op.resolve cwd) = lmk cwd cfg out suite ++ lwr cwd cfg out suite := by
  simp [Gen.ops, lmk, lwr]

variable {suite} (hn : PlainNames suite)
include hn

theorem mem_lmk (op : LOp) : op ∈ lmk cwd cfg out suite ↔
    ∃ c ∈ cfg.cpps, ∃ r ∈ dirRests suite c, op = .mkdir (vdir cwd out c ++ r) := by
  unfold lmk
  rw [List.map_flatMap]
  simp only [List.mem_flatMap, resolve_mkdirOps cwd _ suite _ hn, List.mem_map]
  constructor
  · rintro ⟨c, hc, r, hr, rfl⟩; exact ⟨c, hc, r, hr, rfl⟩
  · rintro ⟨c, hc, r, hr, rfl⟩; exact ⟨c, hc, r, hr, rfl⟩

theorem lwr_perm : (lwr cwd cfg out suite).Perm (cfg.cpps.flatMap (fun c => copyOps cwd (gdirs cfg out) suite c ++
    (filesOf suite c).map (fun rc => LOp.write (vdir cwd out c ++ rc.1) rc.2))) := by
  unfold lwr
  rw [List.map_flatMap]
  exact List.Perm.flatMap_left _ (fun c _ => resolve_writeOps cwd _ suite c hn)

theorem mem_lwr (op : LOp) : op ∈ lwr cwd cfg out suite ↔
    ∃ c ∈ cfg.cpps, ((c.process suite.types).hasConversion = true ∧
        op = .copy (locate cwd cfg.directory ++ conversionFile c) (locate cwd out ++ conversionFile c)) ∨
      ∃ rc ∈ filesOf suite c, op = .write (vdir cwd out c ++ rc.1) rc.2 := by
  rw [(lwr_perm cwd cfg out hn).mem_iff]
  simp only [List.mem_flatMap, List.mem_append, List.mem_map, copyOps]
  constructor
  · rintro ⟨c, hc, h | ⟨rc, hrc, rfl⟩⟩
    · split at h
      · rename_i hb
        exact ⟨c, hc, .inl ⟨hb, by simpa using h⟩⟩
      · simp at h
    · exact ⟨c, hc, .inr ⟨rc, hrc, rfl⟩⟩
  · rintro ⟨c, hc, ⟨hb, rfl⟩ | ⟨rc, hrc, rfl⟩⟩
    · exact ⟨c, hc, .inl (by rw [if_pos hb]; simp)⟩
    · exact ⟨c, hc, .inr ⟨rc, hrc, rfl⟩⟩

theorem lmk_inside {op : LOp} (h : op ∈ lmk cwd cfg out suite) : ∃ r, r ≠ [] ∧ op = .mkdir (locate cwd out ++ r) := by
  obtain ⟨c, _, r, _, rfl⟩ := (mem_lmk cwd cfg out hn op).1 h
  exact ⟨c.variant.string :: r, by simp, by simp [vdir]⟩

theorem lwr_inside {op : LOp} (h : op ∈ lwr cwd cfg out suite) : ∃ r, r ≠ [] ∧ op.file? = some (locate cwd out ++ r) := by
  obtain ⟨c, _, ⟨_, rfl⟩ | ⟨rc, _, rfl⟩⟩ := (mem_lwr cwd cfg out hn op).1 h
  · exact ⟨conversionFile c, by simp [conversionFile], rfl⟩
  · exact ⟨c.variant.string :: rc.1, by simp, by simp [vdir, LOp.file?]⟩

end

/-! ### C49 -/

/-- C49: every directory made and file written lies inside the output directory, from whatever working directory the tool is run. -/
theorem C49_targets_inside (cwd : Loc) (cfg : GenConfig) (out : Str) (suite : StmSuite) (hn : PlainNames suite) (op : Op)
    (hop : op ∈ Gen.ops cfg out suite) :
    Inside (locate cwd out) (locate cwd (target op)) ∧ locate cwd (target op) ≠ locate cwd out := by
  have hm : op.resolve cwd ∈ lmk cwd cfg out suite ++ lwr cwd cfg out suite := by
    rw [← ops_resolve]; exact List.mem_map_of_mem hop
  have key : ∃ r, r ≠ [] ∧ locate cwd (target op) = locate cwd out ++ r := by
    rcases List.mem_append.1 hm with hm | hm
    · obtain ⟨r, hr, e⟩ := lmk_inside cwd cfg out hn hm
      cases op <;> simp only [Op.resolve, LOp.mkdir.injEq, reduceCtorEq] at e
      exact ⟨r, hr, e⟩
    · obtain ⟨r, hr, e⟩ := lwr_inside cwd cfg out hn hm
      cases op <;> simp only [Op.resolve, LOp.file?, Option.some.injEq, reduceCtorEq] at e
      · exact ⟨r, hr, e⟩
      · exact ⟨r, hr, e⟩
  obtain ⟨r, hr, e⟩ := key
  rw [e]
  refine ⟨List.prefix_append _ _, fun h => hr ?_⟩
  simpa using h

/-- The generation alone changes nothing outside the output directory, apart from making the directories on the way to it. -/
theorem run_frame (cwd : Loc) (fs : Fs) (cfg : GenConfig) (out : Str) (suite : StmSuite) (hn : PlainNames suite) (a : Loc) :
    (¬ Inside (locate cwd out) a → (Gen.run cwd fs (Gen.ops cfg out suite)).1.file a = fs.file a) ∧
    (¬ Inside (locate cwd out) a → ¬ a <+: locate cwd out → (Gen.run cwd fs (Gen.ops cfg out suite)).1.isDir a = fs.isDir a) ∧
    (fs.isDir a = true → (Gen.run cwd fs (Gen.ops cfg out suite)).1.isDir a = true) := by
  rw [run_eq, ops_resolve]
  have hfile : ∀ op ∈ lmk cwd cfg out suite ++ lwr cwd cfg out suite, ∀ x, op.file? = some x → Inside (locate cwd out) x := by
    intro op hop x hx
    rcases List.mem_append.1 hop with hop | hop
    · obtain ⟨r, _, rfl⟩ := lmk_inside cwd cfg out hn hop; cases hx
    · obtain ⟨r, _, e⟩ := lwr_inside cwd cfg out hn hop
      rw [e] at hx; cases hx; exact List.prefix_append _ _
  have hdir : ∀ op ∈ lmk cwd cfg out suite ++ lwr cwd cfg out suite, ∀ m, op.dir? = some m → Inside (locate cwd out) m := by
    intro op hop m hm
    rcases List.mem_append.1 hop with hop | hop
    · obtain ⟨r, _, rfl⟩ := lmk_inside cwd cfg out hn hop; cases hm; exact List.prefix_append _ _
    · obtain ⟨r, _, e⟩ := lwr_inside cwd cfg out hn hop
      cases op <;> simp [LOp.dir?, LOp.file?] at hm e
  refine ⟨fun ha => ?_, fun ha hb => ?_, fun h => runL_isDir_mono _ _ _ h⟩
  · exact runL_file _ _ _ (fun op hop h => ha (hfile op hop a h))
  · refine runL_isDir _ _ _ (fun op hop m hm hp => ?_)
    rcases List.prefix_or_prefix_of_prefix hp (hdir op hop m hm) with h | h
    · exact hb h
    · exact ha h

theorem action_error {cwd : Loc} {fs f : Fs} {clean : Bool} {output : Str} {cfg : GenConfig} {suite : StmSuite} {e : Fail}
    (hm : Gen.maybeClean cwd fs clean (cleanPath output) = (f, .error e)) :
    Gen.action cwd fs clean output cfg suite = (f, .error e) := by
  simp only [Gen.action, hm]

theorem action_ok {cwd : Loc} {fs f : Fs} {clean : Bool} {output : Str} {cfg : GenConfig} {suite : StmSuite}
    (hm : Gen.maybeClean cwd fs clean (cleanPath output) = (f, .ok ())) :
    Gen.action cwd fs clean output cfg suite = Gen.run cwd f (Gen.ops cfg (cleanPath output) suite) := by
  simp only [Gen.action, hm]

/-- C49, as an effect on the file system: whether or not it succeeds, with or without -clean, rtcg-gen leaves every file and
directory outside the output directory as it was; the only new directories outside are those leading to the output directory. -/
theorem C49_outside_untouched (cwd : Loc) (fs : Fs) (clean : Bool) (output : Str) (cfg : GenConfig) (suite : StmSuite)
    (hn : PlainNames suite) (a : Loc) (ha : ¬ Inside (locate cwd output) a) :
    (Gen.action cwd fs clean output cfg suite).1.file a = fs.file a ∧
    (fs.isDir a = true → (Gen.action cwd fs clean output cfg suite).1.isDir a = true) ∧
    ((Gen.action cwd fs clean output cfg suite).1.isDir a = true → fs.isDir a = true ∨ a <+: locate cwd output) := by
  have hrt : ∀ keep, (fs.removeTree (locate cwd output) keep).file a = fs.file a ∧
      (fs.removeTree (locate cwd output) keep).isDir a = fs.isDir a := by
    intro keep
    simp only [Inside] at ha
    simp [Fs.removeTree, ha]
  have hclean : ∀ p, p = Gen.maybeClean cwd fs clean (cleanPath output) → p.1.file a = fs.file a ∧ p.1.isDir a = fs.isDir a := by
    intro p hp
    rw [hp]
    unfold Gen.maybeClean Fs.removeAll
    rw [locate_cleanPath]
    split
    · exact ⟨rfl, rfl⟩
    split
    · exact ⟨rfl, rfl⟩
    split
    · exact hrt true
    · exact hrt false
  cases hm : Gen.maybeClean cwd fs clean (cleanPath output) with
  | mk f r =>
    have hc := hclean _ hm.symm
    simp only at hc
    cases r with
    | error e => rw [action_error hm]; simp only; rw [hc.1, hc.2]; exact ⟨rfl, id, .inl⟩
    | ok u =>
      cases u
      rw [action_ok hm]
      obtain ⟨h1, h2, h3⟩ := run_frame cwd f cfg (cleanPath output) suite hn a
      rw [locate_cleanPath] at h1 h2
      refine ⟨by rw [h1 ha, hc.1], fun h => h3 (by rw [hc.2, h]), fun h => ?_⟩
      by_cases hb : a <+: locate cwd output
      · exact .inr hb
      · rw [h2 ha hb, hc.2] at h; exact .inl h

/-- A suite with one test of the given name. -/
def oneTest (name : Str) : StmSuite := ⟨[], [(name, ⟨[], [], []⟩)]⟩

/-- A configuration with one bare C++ variant. -/
def bareConfig : CppConfig.Config := ⟨Variant.ros, [], [], false, none⟩

/-- The condition on test names is needed: the test name is used as a path, so `../../../x` leads out of the output directory. -/
theorem C49_needs_plain_names : ∃ op ∈ Gen.ops ⟨[bareConfig], c!"cfg"⟩ c!"out" (oneTest c!"../../../x"),
    ¬ Inside (locate [c!"w"] c!"out") (locate [c!"w"] (target op)) := by
  refine ⟨.mkdir c!"x/include", ?_, by decide⟩
  unfold Gen.ops
  refine List.mem_append_left _ ?_
  decide

example : PlainNames (oneTest c!"test0") := by
  intro nt h
  rw [List.mem_singleton.1 h]; decide

/-! ### C51 -/

/-- The files of a configuration below its directory. -/
def fileRests (suite : StmSuite) (c : CppConfig.Config) : List (List Str) :=
  (if (c.process suite.types).hasConversion then [[c!"src", c!"convert", c!"convert.cpp"]] else []) ++
    (filesOf suite c).map (·.1)

theorem nodup_fileRests (suite : StmSuite) (c : CppConfig.Config) (hwf : GoMap.WF suite.tests) : (fileRests suite c).Nodup := by
  unfold fileRests filesOf
  simp only [List.map_append, List.map_map]
  have hk : (suite.tests.map (fun nt => nt.1)).Nodup := hwf
  have hmain : (suite.tests.map ((fun x : List Str × Content => x.1) ∘ fun nt => (([c!"src", nt.1, c!"src", c!"main.cpp"],
      Content.mainCpp c.variant nt.1 nt.2 (TransitionContext.make nt.2) (c.process suite.types)) : List Str × Content))).Nodup := by
    have : ((fun x : List Str × Content => x.1) ∘ fun nt : Str × Stm => (([c!"src", nt.1, c!"src", c!"main.cpp"],
      Content.mainCpp c.variant nt.1 nt.2 (TransitionContext.make nt.2) (c.process suite.types)) : List Str × Content)) =
      (fun n : Str => [c!"src", n, c!"src", c!"main.cpp"]) ∘ (fun nt : Str × Stm => nt.1) := rfl
    rw [this, ← List.map_map]
    exact hk.map (fun a b h => by simpa using h)
  have hcat : ∀ pkg, ((suite.tests.flatMap (fun nt =>
        ([([c!"src", nt.1, c!"package.xml"], .packageXml (Catkin.forTest pkg nt.1)),
         ([c!"src", nt.1, c!"CMakeLists.txt"], .cmake (Catkin.forTest pkg nt.1))] : List (List Str × Content)))).map (·.1)).Nodup := by
    intro pkg
    rw [map_flatMap_congr _ _ _ (fun nt : Str × Stm => [[c!"src", nt.1, c!"package.xml"], [c!"src", nt.1, c!"CMakeLists.txt"]]) (fun a _ => rfl)]
    rw [List.nodup_flatMap]
    refine ⟨fun nt _ => by simp, ?_⟩
    have : suite.tests.Pairwise (fun a b => a.1 ≠ b.1) := List.pairwise_map.1 hk
    refine this.imp (fun {a b} hab => ?_)
    intro x hx hy
    simp only [List.mem_cons, List.not_mem_nil, or_false] at hx hy
    rcases hx with rfl | rfl <;> rcases hy with hy | hy <;> simp at hy <;> exact hab hy
  simp only [List.nodup_append]
  refine ⟨?_, ⟨⟨⟨by simp, hmain, ?_⟩, ?_, ?_⟩, ?_, ?_⟩, ?_⟩
  · split <;> simp
  · intro a ha b hb hab
    subst hab
    simp only [List.map_cons, List.map_nil, List.mem_cons, List.not_mem_nil, or_false, List.mem_map, Function.comp] at ha hb
    obtain ⟨nt, _, rfl⟩ := hb
    simp at ha
  · cases c.catkin with
    | none => simp
    | some pkg => exact hcat pkg
  · intro a ha b hb hab
    subst hab
    cases hk : c.catkin with
    | none => rw [hk] at hb; simp at hb
    | some pkg =>
      rw [hk] at hb
      simp only [List.mem_map, List.mem_flatMap, List.mem_cons, List.not_mem_nil, or_false] at hb
      obtain ⟨x, ⟨nt, _, rfl | rfl⟩, rfl⟩ := hb <;>
      · rcases List.mem_append.1 ha with ha | ha
        · simp at ha
        · simp only [List.mem_map, Function.comp] at ha
          obtain ⟨nt', _, ha⟩ := ha
          simp at ha
  · split <;> simp
  · intro a ha b hb hab
    subst hab
    split at hb
    · simp only [List.map_cons, List.map_nil, List.mem_singleton] at hb
      subst hb
      rcases List.mem_append.1 ha with ha | ha
      · rcases List.mem_append.1 ha with ha | ha
        · simp at ha
        · simp at ha
      · cases hk : c.catkin with
        | none => rw [hk] at ha; simp at ha
        | some pkg =>
          rw [hk] at ha
          simp only [List.mem_map, List.mem_flatMap, List.mem_cons, List.not_mem_nil, or_false] at ha
          obtain ⟨x, ⟨nt, _, rfl | rfl⟩, ha⟩ := ha <;> simp at ha
    · simp at hb
  · intro a ha b hb hab
    subst hab
    split at ha
    · rw [List.mem_singleton] at ha
      subst ha
      rcases List.mem_append.1 hb with hb | hb
      · rcases List.mem_append.1 hb with hb | hb
        · rcases List.mem_append.1 hb with hb | hb
          · simp at hb
          · simp at hb
        · cases hk : c.catkin with
          | none => rw [hk] at hb; simp at hb
          | some pkg =>
            rw [hk] at hb
            simp only [List.mem_map, List.mem_flatMap, List.mem_cons, List.not_mem_nil, or_false] at hb
            obtain ⟨x, ⟨nt, _, rfl | rfl⟩, hb⟩ := hb <;> simp at hb
      · split at hb <;> simp at hb
    · simp at ha

theorem nodup_lwr (cwd : Loc) (cfg : GenConfig) (out : Str) {suite : StmSuite} (hn : PlainNames suite) (hwf : GoMap.WF suite.tests)
    (hv : (cfg.cpps.map (·.variant)).Nodup) : ((lwr cwd cfg out suite).filterMap LOp.file?).Nodup := by
  rw [((lwr_perm cwd cfg out hn).filterMap _).nodup_iff, List.filterMap_flatMap]
  have e : ∀ c, List.filterMap LOp.file? (copyOps cwd (gdirs cfg out) suite c ++
      (filesOf suite c).map (fun rc => LOp.write (vdir cwd out c ++ rc.1) rc.2)) =
      (fileRests suite c).map (fun r => vdir cwd out c ++ r) := by
    intro c
    unfold copyOps fileRests
    rw [List.filterMap_append, List.map_append, List.filterMap_map, List.map_map]
    congr 1
    · split <;> simp [LOp.file?, vdir, conversionFile]
    · rw [← List.filterMap_eq_map]; rfl
  simp only [e]
  rw [List.nodup_flatMap]
  refine ⟨fun c _ => (nodup_fileRests suite c hwf).map (fun a b h => List.append_cancel_left h), ?_⟩
  have : cfg.cpps.Pairwise (fun a b => a.variant ≠ b.variant) := List.pairwise_map.1 hv
  refine this.imp (fun {a b} hab => ?_)
  intro x hx hy
  obtain ⟨r, _, rfl⟩ := List.mem_map.1 hx
  obtain ⟨r', _, h⟩ := List.mem_map.1 hy
  simp only [vdir, List.append_assoc] at h
  have := List.append_cancel_left h
  simp only [List.singleton_append, List.cons.injEq] at this
  exact hab (variant_string_inj this.1.symm)

theorem filterMap_resolve (cwd : Loc) (ops : List Op) :
    (ops.filterMap fileTarget).map (locate cwd) = (ops.map (Op.resolve cwd)).filterMap LOp.file? := by
  rw [List.filterMap_map, List.map_filterMap]
  congr 1
  funext op
  cases op <;> rfl

/-- C51: with at most one configuration per variant, the files written in one generation are pairwise different, wherever the
tool is run (also: as paths). -/
theorem C51_distinct_files (cwd : Loc) (cfg : GenConfig) (out : Str) (suite : StmSuite) (hn : PlainNames suite)
    (hwf : GoMap.WF suite.tests) (hv : (cfg.cpps.map (·.variant)).Nodup) :
    (((Gen.ops cfg out suite).filterMap fileTarget).map (locate cwd)).Nodup ∧
    ((Gen.ops cfg out suite).filterMap fileTarget).Nodup := by
  have h : (((Gen.ops cfg out suite).filterMap fileTarget).map (locate cwd)).Nodup := by
    rw [filterMap_resolve, ops_resolve, List.filterMap_append]
    have : (lmk cwd cfg out suite).filterMap LOp.file? = [] := by
      rw [List.filterMap_eq_nil_iff]
      intro op hop
      obtain ⟨r, _, rfl⟩ := lmk_inside cwd cfg out hn hop
      rfl
    rw [this, List.nil_append]
    exact nodup_lwr cwd cfg out hn hwf hv
  exact ⟨h, List.Nodup.of_map _ h⟩

/-- With two configurations for the same variant, files do get overwritten: the condition on variants is needed. -/
theorem C51_needs_distinct_variants : ¬ ((Gen.ops ⟨[bareConfig, bareConfig], c!"cfg"⟩ c!"out" (oneTest c!"t")).filterMap fileTarget).Nodup := by
  decide

theorem needsConversion_iff {suite : StmSuite} (hwt : GoMap.WF suite.types) {c : CppConfig.Config} :
    (c.process suite.types).hasConversion = true ↔ needsConversion suite c := by
  rw [(C48_process c suite.types hwt).2.2.2]
  unfold needsConversion GoMap.keys
  constructor
  · rintro ⟨name, ty, hm, ch, hch, rfl⟩; exact ⟨ch, hch, List.mem_map.2 ⟨_, hm, rfl⟩⟩
  · rintro ⟨ch, hch, h⟩
    obtain ⟨⟨n, ty⟩, hm, e⟩ := List.mem_map.1 h
    exact ⟨n, ty, hm, ch, hch, e.symm⟩

/-! ### C66: what the files hold -/

theorem dirs_ok_split {cwd : Loc} {cfg : GenConfig} {out : Str} {suite : StmSuite} (hn : PlainNames suite) {fs fs' : Fs}
    (h : Gen.run cwd fs (Gen.ops cfg out suite) = (fs', .ok ())) :
    ∃ f, f.file = fs.file ∧ runL f (lwr cwd cfg out suite) = (fs', .ok ()) := by
  rw [run_eq, ops_resolve, runL_append] at h
  cases hm : runL fs (lmk cwd cfg out suite) with
  | mk f r =>
    rw [hm] at h
    cases r with
    | error e => simp at h
    | ok u =>
      refine ⟨f, ?_, h⟩
      funext a
      have := runL_file (lmk cwd cfg out suite) fs a (by
        intro op hop
        obtain ⟨r, _, rfl⟩ := lmk_inside cwd cfg out hn hop
        simp [LOp.file?])
      rwa [hm] at this

/-- C66: after a successful generation every generated file holds exactly what was generated for it — each test's main.cpp comes
from that test's machine, each package file from its test, in the directory of its variant — and all other files are as before. -/
theorem C66_contents (cwd : Loc) (fs fs' : Fs) (cfg : GenConfig) (out : Str) (suite : StmSuite) (hn : PlainNames suite)
    (hwf : GoMap.WF suite.tests) (hwt : GoMap.WF suite.types) (hv : (cfg.cpps.map (·.variant)).Nodup)
    (hok : Gen.run cwd fs (Gen.ops cfg out suite) = (fs', .ok ())) :
    (∀ c ∈ cfg.cpps, ∀ rc ∈ filesOf suite c, fs'.file (locate cwd out ++ c.variant.string :: rc.1) = some rc.2) ∧
    (∀ c ∈ cfg.cpps, needsConversion suite c → ¬ Inside (locate cwd out) (locate cwd cfg.directory ++ conversionFile c) →
      fs'.file (locate cwd out ++ conversionFile c) = fs.file (locate cwd cfg.directory ++ conversionFile c)) ∧
    ∀ a, (∀ c ∈ cfg.cpps, (∀ rc ∈ filesOf suite c, a ≠ locate cwd out ++ c.variant.string :: rc.1) ∧
        (needsConversion suite c → a ≠ locate cwd out ++ conversionFile c)) →
      fs'.file a = fs.file a := by
  simp only [← needsConversion_iff hwt]
  obtain ⟨f, hf, hr⟩ := dirs_ok_split hn hok
  have hc := runL_content (lwr cwd cfg out suite) f (by rw [hr]) (nodup_lwr cwd cfg out hn hwf hv)
  rw [hr] at hc
  simp only at hc
  refine ⟨fun c hcm rc hrc => ?_, fun c hcm hcv hout => ?_, fun a ha => ?_⟩
  · have := hc.1 (vdir cwd out c ++ rc.1) rc.2 ((mem_lwr cwd cfg out hn _).2 ⟨c, hcm, .inr ⟨rc, hrc, rfl⟩⟩)
    simpa [vdir] using this
  · rw [hc.2 _ _ ((mem_lwr cwd cfg out hn _).2 ⟨c, hcm, .inl ⟨hcv, rfl⟩⟩), hf]
    intro hm
    obtain ⟨op, hop, he⟩ := List.mem_filterMap.1 hm
    obtain ⟨r, _, e⟩ := lwr_inside cwd cfg out hn hop
    rw [e] at he
    exact hout (by rw [← Option.some.inj he]; exact List.prefix_append _ _)
  · have := runL_file (lwr cwd cfg out suite) f a (by
      intro op hop he
      obtain ⟨c, hcm, ⟨hcv, rfl⟩ | ⟨rc, hrc, rfl⟩⟩ := (mem_lwr cwd cfg out hn op).1 hop
      · simp only [LOp.file?, Option.some.injEq] at he
        exact (ha c hcm).2 hcv he.symm
      · simp only [LOp.file?, Option.some.injEq, vdir, List.append_assoc, List.singleton_append] at he
        exact (ha c hcm).1 rc hrc he.symm)
    rw [hr] at this
    rw [this, hf]

/-! ### C50 -/

theorem mem_fileRests (suite : StmSuite) (c : CppConfig.Config) (r : List Str) : r ∈ fileRests suite c ↔
    ((c.process suite.types).hasConversion = true ∧ r = [c!"src", c!"convert", c!"convert.cpp"]) ∨
    r = [c!"src", c!"rtcg", c!"rtcg.cpp"] ∨ r = [c!"src", c!"rtcg", c!"rtcg.h"] ∨ r = [c!"src", c!"convert", c!"convert.h"] ∨
    (∃ n ∈ suite.tests.keys, r = [c!"src", n, c!"src", c!"main.cpp"]) ∨
    (c.catkin.isSome = true ∧ ∃ n ∈ suite.tests.keys, r = [c!"src", n, c!"package.xml"] ∨ r = [c!"src", n, c!"CMakeLists.txt"]) ∨
    (c.makefile = true ∧ r = [c!"Makefile"]) := by
  unfold fileRests filesOf
  simp only [List.map_append, List.map_map, List.mem_append, List.map_cons, List.map_nil, List.mem_cons, List.not_mem_nil, or_false,
    GoMap.keys]
  have h1 : r ∈ (if (c.process suite.types).hasConversion then [[c!"src", c!"convert", c!"convert.cpp"]] else []) ↔
      ((c.process suite.types).hasConversion = true ∧ r = [c!"src", c!"convert", c!"convert.cpp"]) := by
    split <;> simp [*]
  have h2 : ∀ k : Option (Option Catkin.Package), r ∈ List.map (fun x : List Str × Content => x.1) (match k with
      | none => []
      | some pkg => suite.tests.flatMap (fun nt =>
        [([c!"src", nt.1, c!"package.xml"], .packageXml (Catkin.forTest pkg nt.1)),
         ([c!"src", nt.1, c!"CMakeLists.txt"], .cmake (Catkin.forTest pkg nt.1))])) ↔
      (k.isSome = true ∧ ∃ n ∈ suite.tests.map (·.1), r = [c!"src", n, c!"package.xml"] ∨ r = [c!"src", n, c!"CMakeLists.txt"]) := by
    intro k
    cases k with
    | none => simp
    | some pkg =>
      simp only [List.mem_map, List.mem_flatMap, List.mem_cons, List.not_mem_nil, or_false, Option.isSome_some, true_and]
      constructor
      · rintro ⟨x, ⟨nt, hnt, rfl | rfl⟩, rfl⟩
        · exact ⟨_, ⟨nt, hnt, rfl⟩, .inl rfl⟩
        · exact ⟨_, ⟨nt, hnt, rfl⟩, .inr rfl⟩
      · rintro ⟨n, ⟨nt, hnt, rfl⟩, rfl | rfl⟩
        · exact ⟨_, ⟨nt, hnt, .inl rfl⟩, rfl⟩
        · exact ⟨_, ⟨nt, hnt, .inr rfl⟩, rfl⟩
  have h3 : r ∈ List.map (fun x : List Str × Content => x.1)
      (if c.makefile then [([c!"Makefile"], Content.makefile (suite.tests.map (·.1)) (c.process suite.types))] else []) ↔
      (c.makefile = true ∧ r = [c!"Makefile"]) := by
    split <;> simp [*]
  rw [h1, h3]
  have h4 := h2 c.catkin
  constructor
  · rintro (h | (((h | h) | h) | h))
    · exact .inl h
    · rcases h with h | h | h
      · exact .inr (.inl h)
      · exact .inr (.inr (.inl h))
      · exact .inr (.inr (.inr (.inl h)))
    · obtain ⟨nt, hnt, rfl⟩ := List.mem_map.1 h
      exact .inr (.inr (.inr (.inr (.inl ⟨_, List.mem_map.2 ⟨nt, hnt, rfl⟩, rfl⟩))))
    · exact .inr (.inr (.inr (.inr (.inr (.inl (h4.1 h))))))
    · exact .inr (.inr (.inr (.inr (.inr (.inr h)))))
  · rintro (h | h | h | h | ⟨n, hn, rfl⟩ | h | h)
    · exact .inl h
    · exact .inr (.inl (.inl (.inl (.inl h))))
    · exact .inr (.inl (.inl (.inl (.inr (.inl h)))))
    · exact .inr (.inl (.inl (.inl (.inr (.inr h)))))
    · obtain ⟨nt, hnt, rfl⟩ := List.mem_map.1 hn
      exact .inr (.inl (.inl (.inr (List.mem_map.2 ⟨nt, hnt, rfl⟩))))
    · exact .inr (.inl (.inr (h4.2 h)))
    · exact .inr (.inr h)

theorem mem_dirRests (suite : StmSuite) (c : CppConfig.Config) (r : List Str) : r ∈ dirRests suite c ↔
    r = [c!"src", c!"rtcg"] ∨ ((c.process suite.types).hasConversion = true ∧ r = [c!"src", c!"convert"]) ∨
    ∃ n ∈ suite.tests.keys, r = [c!"src", n, c!"include"] ∨ r = [c!"src", n, c!"src"] := by
  unfold dirRests GoMap.keys
  have h1 : r ∈ (if (c.process suite.types).hasConversion then [[c!"src", c!"convert"]] else []) ↔
      ((c.process suite.types).hasConversion = true ∧ r = [c!"src", c!"convert"]) := by
    split <;> simp [*]
  simp only [List.cons_append, List.mem_cons, List.mem_append, h1, List.mem_flatMap, List.not_mem_nil, or_false, List.mem_map]
  refine or_congr_right (or_congr_right ?_)
  constructor
  · rintro ⟨nt, hnt, h⟩; exact ⟨_, ⟨nt, hnt, rfl⟩, h⟩
  · rintro ⟨n, ⟨nt, hnt, rfl⟩, h⟩; exact ⟨nt, hnt, h⟩

/-- No file is where a directory is, or on the way to one. -/
theorem file_not_dir {suite : StmSuite} {c c' : CppConfig.Config} {r r' : List Str} (h : r ∈ fileRests suite c)
    (h' : r' ∈ dirRests suite c') : ¬ r <+: r' := by
  rw [mem_fileRests] at h
  rw [mem_dirRests] at h'
  intro hp
  rcases h with ⟨-, rfl⟩ | rfl | rfl | rfl | ⟨n, -, rfl⟩ | ⟨-, n, -, rfl | rfl⟩ | ⟨-, rfl⟩ <;>
    rcases h' with rfl | ⟨-, rfl⟩ | ⟨m, -, rfl | rfl⟩ <;> simp [List.cons_prefix_cons] at hp

/-- The directories of all files are made, except that of convert.h when there is neither conversion code nor a test called so. -/
theorem parent_made {suite : StmSuite} {c : CppConfig.Config} {r : List Str} (h : r ∈ fileRests suite c) :
    (∃ r' ∈ dirRests suite c, r.dropLast <+: r') ↔ (r = [c!"src", c!"convert", c!"convert.h"] →
      (c.process suite.types).hasConversion = true ∨ c!"convert" ∈ suite.tests.keys) := by
  have hd := mem_dirRests suite c
  rw [mem_fileRests] at h
  rcases h with ⟨hc, rfl⟩ | rfl | rfl | rfl | ⟨n, hn, rfl⟩ | ⟨-, n, hn, rfl | rfl⟩ | ⟨-, rfl⟩
  · refine iff_of_true ⟨_, (hd _).2 (.inr (.inl ⟨hc, rfl⟩)), by simp⟩ (by simp)
  · refine iff_of_true ⟨_, (hd _).2 (.inl rfl), by simp⟩ (by simp)
  · refine iff_of_true ⟨_, (hd _).2 (.inl rfl), by simp⟩ (by simp)
  · simp only [true_imp_iff]
    constructor
    · rintro ⟨r', hr', hp⟩
      rw [hd] at hr'
      rcases hr' with rfl | ⟨hc, rfl⟩ | ⟨m, hm, rfl | rfl⟩
      · simp [List.cons_prefix_cons] at hp
      · exact .inl hc
      · simp [List.cons_prefix_cons] at hp; subst hp; exact .inr hm
      · simp [List.cons_prefix_cons] at hp; subst hp; exact .inr hm
    · rintro (h | h)
      · exact ⟨_, (hd _).2 (.inr (.inl ⟨h, rfl⟩)), by simp⟩
      · exact ⟨_, (hd _).2 (.inr (.inr ⟨_, h, .inl rfl⟩)), by simp [List.cons_prefix_cons]⟩
  · refine iff_of_true ⟨_, (hd _).2 (.inr (.inr ⟨n, hn, .inr rfl⟩)), by simp⟩ (by simp)
  · refine iff_of_true ⟨_, (hd _).2 (.inr (.inr ⟨n, hn, .inr rfl⟩)), by simp [List.cons_prefix_cons]⟩ (by simp)
  · refine iff_of_true ⟨_, (hd _).2 (.inr (.inr ⟨n, hn, .inr rfl⟩)), by simp [List.cons_prefix_cons]⟩ (by simp)
  · refine iff_of_true ⟨_, (hd _).2 (.inl rfl), by simp⟩ (by simp)

theorem mem_files_lwr {cwd : Loc} {cfg : GenConfig} {out : Str} {suite : StmSuite} (hn : PlainNames suite) {op : LOp}
    (h : op ∈ lwr cwd cfg out suite) : ∃ c ∈ cfg.cpps, ∃ r ∈ fileRests suite c, op.file? = some (locate cwd out ++ c.variant.string :: r) := by
  obtain ⟨c, hc, ⟨hb, rfl⟩ | ⟨rc, hrc, rfl⟩⟩ := (mem_lwr cwd cfg out hn op).1 h
  · exact ⟨c, hc, [c!"src", c!"convert", c!"convert.cpp"], (mem_fileRests _ _ _).2 (.inl ⟨hb, rfl⟩), rfl⟩
  · exact ⟨c, hc, rc.1, by simp [fileRests]; exact .inr ⟨_, hrc⟩, by simp [LOp.file?, vdir]⟩

/-- Distinct variants: the configuration is known by its directory. -/
theorem cpp_of_variant {cpps : List CppConfig.Config} (hv : (cpps.map (·.variant)).Nodup) {c c' : CppConfig.Config} (hc : c ∈ cpps)
    (hc' : c' ∈ cpps) (h : c'.variant.string = c.variant.string) : c' = c :=
  List.inj_on_of_nodup_map hv hc' hc (variant_string_inj h)

/-- When a generation succeeds, from any state of the file system. -/
theorem run_ok_iff (cwd : Loc) (fs : Fs) (cfg : GenConfig) (out : Str) {suite : StmSuite} (hn : PlainNames suite)
    (hwt : GoMap.WF suite.types)
    (hsrc : ∀ c ∈ cfg.cpps, needsConversion suite c → ¬ Inside (locate cwd out) (locate cwd cfg.directory ++ conversionFile c))
    (mk wr : List Op) (hmk : mk.Perm (cfg.cpps.flatMap (Gen.mkdirOps (gdirs cfg out) suite)))
    (hwr : wr.Perm (cfg.cpps.flatMap (Gen.writeOps (gdirs cfg out) suite))) :
    (Gen.run cwd fs (mk ++ wr)).2 = .ok () ↔
      (∀ l, LOp.mkdir l ∈ lmk cwd cfg out suite → ∀ a, a <+: l → fs.file a = none) ∧
      ∀ op ∈ lwr cwd cfg out suite, op.Ready (fs.afterMkdirs (lmk cwd cfg out suite)) := by
  have pmk : (mk.map (Op.resolve cwd)).Perm (lmk cwd cfg out suite) := hmk.map _
  have pwr : (wr.map (Op.resolve cwd)).Perm (lwr cwd cfg out suite) := hwr.map _
  have hne : ∀ op ∈ lwr cwd cfg out suite, ∀ l, op ≠ .mkdir l := by
    rintro op hop l rfl
    obtain ⟨r, _, e⟩ := lwr_inside cwd cfg out hn hop
    cases e
  rw [run_eq, List.map_append, runL_all_iff]
  · have e : fs.afterMkdirs (mk.map (Op.resolve cwd)) = fs.afterMkdirs (lmk cwd cfg out suite) := by
      have : (fs.afterMkdirs (mk.map (Op.resolve cwd))).isDir = (fs.afterMkdirs (lmk cwd cfg out suite)).isDir := by
        funext a
        rw [Bool.eq_iff_iff, afterMkdirs_isDir, afterMkdirs_isDir]
        simp only [pmk.mem_iff]
      unfold Fs.afterMkdirs at this ⊢
      simp only at this
      rw [this]
    rw [e]
    simp only [pmk.mem_iff, pwr.mem_iff]
  · intro op hop
    obtain ⟨r, _, e⟩ := lmk_inside cwd cfg out hn (pmk.mem_iff.1 hop)
    exact ⟨_, e⟩
  · intro op hop
    exact hne op (pwr.mem_iff.1 hop)
  · intro s d hop hs
    obtain ⟨c, hc, ⟨hb, e⟩ | ⟨rc, _, e⟩⟩ := (mem_lwr cwd cfg out hn _).1 (pwr.mem_iff.1 hop)
    · cases e
      obtain ⟨o, ho, e⟩ := List.mem_filterMap.1 hs
      obtain ⟨r, _, e'⟩ := lwr_inside cwd cfg out hn (pwr.mem_iff.1 ho)
      rw [e'] at e
      exact hsrc c hc ((needsConversion_iff hwt).1 hb) (by rw [← Option.some.inj e]; exact List.prefix_append _ _)
    · cases e

theorem prefix_of_append {α : Type} {a l r : List α} (h : a <+: l ++ r) : a <+: l ∨ ∃ s, s ≠ [] ∧ s <+: r ∧ a = l ++ s := by
  rcases List.prefix_or_prefix_of_prefix h (List.prefix_append l r) with h' | ⟨s, rfl⟩
  · exact .inl h'
  · by_cases hs : s = []
    · subst hs; exact .inl (by simp)
    · exact .inr ⟨s, hs, (List.prefix_append_right_inj l).1 h, rfl⟩

/-- C50 does not hold in full (`C50_false`): convert.h is always written to the convert directory, but that directory is made only
when conversion code is copied into it.  What holds, for every order in which the suite's tests and configurations are processed: from
an empty output location generation succeeds exactly when every configuration asks for conversions (or there happens to be a test
called "convert") and the conversion code asked for exists; all other directories are always there when needed. -/
theorem C50_succeeds_from_empty_partial (cwd : Loc) (fs : Fs) (cfg : GenConfig) (out : Str) (suite : StmSuite) (hn : PlainNames suite)
    (hwt : GoMap.WF suite.types) (hv : (cfg.cpps.map (·.variant)).Nodup) (hempty : EmptyAt fs (locate cwd out))
    (hsrc : ∀ c ∈ cfg.cpps, needsConversion suite c → ¬ Inside (locate cwd out) (locate cwd cfg.directory ++ conversionFile c))
    (mk wr : List Op) (hmk : mk.Perm (cfg.cpps.flatMap (Gen.mkdirOps ⟨cfg.directory, out⟩ suite)))
    (hwr : wr.Perm (cfg.cpps.flatMap (Gen.writeOps ⟨cfg.directory, out⟩ suite))) :
    (Gen.run cwd fs (mk ++ wr)).2 = .ok () ↔
      ∀ c ∈ cfg.cpps, (needsConversion suite c ∨ c!"convert" ∈ suite.tests.keys) ∧
        (needsConversion suite c → (fs.file (locate cwd cfg.directory ++ conversionFile c)).isSome) := by
  rw [run_ok_iff cwd fs cfg out hn hwt hsrc mk wr hmk hwr]
  obtain ⟨hup, hin⟩ := hempty
  have hno : ∀ l, LOp.mkdir l ∈ lmk cwd cfg out suite → ∀ a, a <+: l → fs.file a = none := by
    intro l hl a ha
    obtain ⟨r, _, e⟩ := lmk_inside cwd cfg out hn hl
    cases e
    rcases prefix_of_append ha with h | ⟨s, hs, _, rfl⟩
    · exact hup a h
    · exact (hin _ (List.prefix_append _ _) (by simpa using hs)).1
  rw [and_iff_right hno]
  -- where the directories are, inside the output
  have hdir : ∀ s : List Str, s ≠ [] → ((fs.afterMkdirs (lmk cwd cfg out suite)).isDir (locate cwd out ++ s) = true ↔
      ∃ c ∈ cfg.cpps, ∃ r ∈ dirRests suite c, s <+: c.variant.string :: r) := by
    intro s hs
    rw [afterMkdirs_isDir]
    have h0 : fs.isDir (locate cwd out ++ s) = false := (hin _ (List.prefix_append _ _) (by simpa using hs)).2
    simp only [h0, Bool.false_eq_true, false_or]
    constructor
    · rintro ⟨l, hl, hp⟩
      obtain ⟨c, hc, r, hr, e⟩ := (mem_lmk cwd cfg out hn _).1 hl
      cases e
      refine ⟨c, hc, r, hr, ?_⟩
      simp only [vdir, List.append_assoc, List.singleton_append] at hp
      exact (List.prefix_append_right_inj _).1 hp
    · rintro ⟨c, hc, r, hr, hp⟩
      refine ⟨vdir cwd out c ++ r, (mem_lmk cwd cfg out hn _).2 ⟨c, hc, r, hr, rfl⟩, ?_⟩
      simp only [vdir, List.append_assoc, List.singleton_append]
      exact (List.prefix_append_right_inj _).2 hp
  have hfile : ∀ c ∈ cfg.cpps, ∀ r ∈ fileRests suite c,
      locate cwd out ++ c.variant.string :: r ≠ [] ∧
      (fs.afterMkdirs (lmk cwd cfg out suite)).isDir (locate cwd out ++ c.variant.string :: r) = false ∧
      ((fs.afterMkdirs (lmk cwd cfg out suite)).isDir (locate cwd out ++ c.variant.string :: r).dropLast = true ↔
        (r = [c!"src", c!"convert", c!"convert.h"] →
      (c.process suite.types).hasConversion = true ∨ c!"convert" ∈ suite.tests.keys)) := by
    intro c hc r hr
    refine ⟨by simp, ?_, ?_⟩
    · rw [Bool.eq_false_iff]
      intro h
      obtain ⟨c', hc', r', hr', hp⟩ := (hdir _ (by simp)).1 h
      rw [List.cons_prefix_cons] at hp
      exact file_not_dir hr hr' hp.2
    · have hrne : r ≠ [] := by
        rintro rfl
        rw [mem_fileRests] at hr
        simp at hr
      rw [List.dropLast_append_of_ne_nil (by simp), List.dropLast_cons_of_ne_nil hrne, hdir _ (by simp), ← parent_made hr]
      constructor
      · rintro ⟨c', hc', r', hr', hp⟩
        rw [List.cons_prefix_cons] at hp
        have := cpp_of_variant hv hc hc' hp.1.symm
        subst this
        exact ⟨r', hr', hp.2⟩
      · rintro ⟨r', hr', hp⟩
        exact ⟨c, hc, r', hr', by rw [List.cons_prefix_cons]; exact ⟨rfl, hp⟩⟩
  constructor
  · intro h c hc
    constructor
    · have hh : ([c!"src", c!"convert", c!"convert.h"], Content.convertH c.variant (c.process suite.types)) ∈ filesOf suite c := by
        simp [filesOf]
      have := h _ ((mem_lwr cwd cfg out hn _).2 ⟨c, hc, .inr ⟨_, hh, rfl⟩⟩)
      obtain ⟨_, _, h3⟩ := this
      have e : vdir cwd out c ++ [c!"src", c!"convert", c!"convert.h"] = locate cwd out ++ c.variant.string :: [c!"src", c!"convert", c!"convert.h"] := by
        simp [vdir]
      simp only [e] at h3
      rw [← needsConversion_iff hwt]
      exact ((hfile c hc _ ((mem_fileRests _ _ _).2 (by simp))).2.2.1 h3) rfl
    · intro hcv
      exact (h _ ((mem_lwr cwd cfg out hn _).2 ⟨c, hc, .inl ⟨(needsConversion_iff hwt).2 hcv, rfl⟩⟩)).1
  · intro h op hop
    obtain ⟨c, hc, r, hr, he⟩ := mem_files_lwr hn hop
    obtain ⟨h1, h2, h3⟩ := hfile c hc r hr
    have h3' := h3.2 (fun _ => by rw [needsConversion_iff hwt]; exact (h c hc).1)
    cases op with
    | mkdir l => cases he
    | write l ct => cases he; exact ⟨h1, h2, h3'⟩
    | copy s d =>
      cases he
      refine ⟨?_, h1, h2, h3'⟩
      obtain ⟨c', hc', ⟨hb, e⟩ | ⟨rc, _, e⟩⟩ := (mem_lwr cwd cfg out hn _).1 hop
      · simp only [LOp.copy.injEq] at e
        have h4 := (h c' hc').2 ((needsConversion_iff hwt).1 hb)
        rw [← e.1] at h4
        exact h4
      · cases e

/-- A file system with nothing but directories leading nowhere. -/
def emptyFs : Fs := ⟨fun a => decide (a = []), fun _ => none⟩

/-- C50 is false: a configuration without conversions and a suite with one test; the run fails writing convert.h. -/
theorem C50_false : PlainNames (oneTest c!"t") ∧ EmptyAt emptyFs (locate [] c!"out") ∧
    (Gen.run [] emptyFs (Gen.ops ⟨[bareConfig], c!"cfg"⟩ c!"out" (oneTest c!"t"))).2 = throwErr .os := by
  refine ⟨?_, ⟨fun _ _ => rfl, fun a h hne => ⟨rfl, ?_⟩⟩, ?_⟩
  · intro nt h; rw [List.mem_singleton.1 h]; decide
  · simp only [emptyFs, decide_eq_false_iff_not]
    rintro rfl
    simp at h
    exact hne h.symm
  · rfl

/-- The conditions of C50 can be met: a configuration with a conversion whose code is there. -/
example : let fs : Fs := ⟨fun a => decide (a <+: [c!"cfg", c!"ros", c!"src", c!"convert"]),
      fun a => if a = [c!"cfg", c!"ros", c!"src", c!"convert", c!"convert.cpp"] then some (.user c!"code") else none⟩
    (Gen.run [] fs (Gen.ops ⟨[⟨Variant.ros, [], [⟨c!"a", c!"Msg"⟩], true, some none⟩], c!"cfg"⟩ c!"out"
      ⟨[(c!"a", none)], [(c!"t", ⟨[], [], []⟩)]⟩)).2 = .ok () := by rfl

/-! ### C67: generating again -/

theorem run_isDir (cwd : Loc) (cfg : GenConfig) (out : Str) {suite : StmSuite} (hn : PlainNames suite) {fs fs' : Fs}
    (hok : Gen.run cwd fs (Gen.ops cfg out suite) = (fs', .ok ())) : fs'.isDir = (fs.afterMkdirs (lmk cwd cfg out suite)).isDir := by
  rw [run_eq, ops_resolve, runL_append] at hok
  have hmk : ∀ op ∈ lmk cwd cfg out suite, ∃ l, op = .mkdir l := fun op hop => by
    obtain ⟨r, _, e⟩ := lmk_inside cwd cfg out hn hop; exact ⟨_, e⟩
  have hno := runL_mkdirs_ok _ hmk fs (by
    cases hm : runL fs (lmk cwd cfg out suite) with
    | mk f r =>
      rw [hm] at hok
      cases r with
      | error e => simp at hok
      | ok u => rfl)
  obtain ⟨f, hf, h1, h2⟩ := runL_mkdirs _ hmk fs hno
  rw [hf] at hok
  simp only at hok
  funext a
  have : (runL f (lwr cwd cfg out suite)).1.isDir a = f.isDir a := runL_isDir _ _ _ (fun op hop m hm => by
    obtain ⟨r, _, e⟩ := lwr_inside cwd cfg out hn hop
    cases op <;> simp [LOp.dir?, LOp.file?] at hm e)
  rw [hok] at this
  rw [this, Bool.eq_iff_iff, h2, afterMkdirs_isDir]

/-- C67: generating again, with nothing changed in between, succeeds and leaves every file and directory as it is. -/
theorem C67_regenerate (cwd : Loc) (fs fs' : Fs) (cfg : GenConfig) (out : Str) (suite : StmSuite) (hn : PlainNames suite)
    (hwf : GoMap.WF suite.tests) (hwt : GoMap.WF suite.types) (hv : (cfg.cpps.map (·.variant)).Nodup)
    (hsrc : ∀ c ∈ cfg.cpps, needsConversion suite c → ¬ Inside (locate cwd out) (locate cwd cfg.directory ++ conversionFile c))
    (hok : Gen.run cwd fs (Gen.ops cfg out suite) = (fs', .ok ())) :
    Gen.run cwd fs' (Gen.ops cfg out suite) = (fs', .ok ()) := by
  have hdirs := run_isDir cwd cfg out hn hok
  have hiff := fun f => run_ok_iff cwd f cfg out hn hwt hsrc _ _ (List.Perm.refl _) (List.Perm.refl _)
  obtain ⟨hA, hB⟩ := (hiff fs).1 (by rw [show cfg.cpps.flatMap _ ++ cfg.cpps.flatMap _ = Gen.ops cfg out suite from rfl, hok])
  have hdirs' : (fs'.afterMkdirs (lmk cwd cfg out suite)).isDir = (fs.afterMkdirs (lmk cwd cfg out suite)).isDir := by
    funext a
    rw [Bool.eq_iff_iff, afterMkdirs_isDir, hdirs, afterMkdirs_isDir]
    tauto
  have hframe : ∀ a, ¬ Inside (locate cwd out) a → fs'.file a = fs.file a := fun a ha => by
    have := (run_frame cwd fs cfg out suite hn a).1 ha
    rwa [hok] at this
  obtain ⟨hC1, hC2, hC3⟩ := C66_contents cwd fs fs' cfg out suite hn hwf hwt hv hok
  -- what is not written is as before
  have hrest : ∀ a, (∀ c ∈ cfg.cpps, ∀ r ∈ fileRests suite c, a ≠ locate cwd out ++ c.variant.string :: r) → fs'.file a = fs.file a := by
    intro a ha
    refine hC3 a (fun c hc => ⟨fun rc hrc => ha c hc rc.1 (by simp [fileRests]; exact .inr ⟨_, hrc⟩), fun hcv => ?_⟩)
    exact ha c hc [c!"src", c!"convert", c!"convert.cpp"] ((mem_fileRests _ _ _).2 (.inl ⟨(needsConversion_iff hwt).2 hcv, rfl⟩))
  have hok2 : (Gen.run cwd fs' (Gen.ops cfg out suite)).2 = .ok () := by
    refine (hiff fs').2 ⟨fun l hl a ha => ?_, fun op hop => ?_⟩
    · rw [hrest a]
      · exact hA l hl a ha
      · rintro c hc r hr rfl
        obtain ⟨c', hc', r', hr', e⟩ := (mem_lmk cwd cfg out hn _).1 hl
        cases e
        simp only [vdir, List.append_assoc, List.singleton_append] at ha
        have := (List.prefix_append_right_inj _).1 ha
        rw [List.cons_prefix_cons] at this
        exact file_not_dir hr hr' this.2
    · have := hB op hop
      cases op with
      | mkdir l => exact this
      | write l ct => simp only [LOp.Ready, hdirs']; exact this
      | copy s d =>
        simp only [LOp.Ready, hdirs']
        refine ⟨?_, this.2⟩
        obtain ⟨c, hc, ⟨hb, e⟩ | ⟨rc, _, e⟩⟩ := (mem_lwr cwd cfg out hn _).1 hop
        · have hs := hsrc c hc ((needsConversion_iff hwt).1 hb)
          simp only [LOp.copy.injEq] at e
          rw [← e.1] at hs
          have h4 := hframe s hs
          show (fs'.file s).isSome = true
          rw [h4]
          exact this.1
        · cases e
  cases hr : Gen.run cwd fs' (Gen.ops cfg out suite) with
  | mk fs'' r =>
    rw [hr] at hok2
    simp only at hok2
    subst hok2
    have hd2 := run_isDir cwd cfg out hn hr
    obtain ⟨hD1, hD2, hD3⟩ := C66_contents cwd fs' fs'' cfg out suite hn hwf hwt hv hr
    have h1 : fs''.isDir = fs'.isDir := by rw [hd2, hdirs', ← hdirs]
    have h2 : fs''.file = fs'.file := by
      funext a
      by_cases h : ∃ c ∈ cfg.cpps, ∃ rc ∈ filesOf suite c, a = locate cwd out ++ c.variant.string :: rc.1
      · obtain ⟨c, hc, rc, hrc, rfl⟩ := h
        rw [hC1 c hc rc hrc, hD1 c hc rc hrc]
      · by_cases h' : ∃ c ∈ cfg.cpps, needsConversion suite c ∧ a = locate cwd out ++ conversionFile c
        · obtain ⟨c, hc, hcv, rfl⟩ := h'
          rw [hC2 c hc hcv (hsrc c hc hcv), hD2 c hc hcv (hsrc c hc hcv), hframe _ (hsrc c hc hcv)]
        · push Not at h h'
          exact hD3 a (fun c hc => ⟨fun rc hrc => h c hc rc hrc, fun hcv => h' c hc hcv⟩)
    cases fs''
    cases fs'
    simp only at h1 h2
    rw [h1, h2]

/-! ### C65: inputs are left alone -/

/-- C65 does not hold in full (`C65_false`).  What holds: conversion code outside the output directory is left as it is, whether or
not the generation succeeds. -/
theorem C65_inputs_kept_partial (cwd : Loc) (fs : Fs) (clean : Bool) (output : Str) (cfg : GenConfig) (suite : StmSuite)
    (hn : PlainNames suite) (c : CppConfig.Config)
    (hout : ¬ Inside (locate cwd output) (locate cwd cfg.directory ++ conversionFile c)) :
    (Gen.action cwd fs clean output cfg suite).1.file (locate cwd cfg.directory ++ conversionFile c) =
      fs.file (locate cwd cfg.directory ++ conversionFile c) :=
  (C49_outside_untouched cwd fs clean output cfg suite hn _ hout).1

/-- C65 is false: with the configuration directory as output directory, the user's conversion code is emptied (it is opened, then
truncated as its own destination), without -clean and without an error. -/
theorem C65_false : let fs : Fs := ⟨fun a => decide (a <+: [c!"cfg", c!"ros", c!"src", c!"convert"]),
      fun a => if a = [c!"cfg", c!"ros", c!"src", c!"convert", c!"convert.cpp"] then some (.user c!"code") else none⟩
    let after := Gen.action [] fs false c!"cfg" ⟨[⟨Variant.ros, [], [⟨c!"a", c!"Msg"⟩], false, none⟩], c!"cfg"⟩ ⟨[(c!"a", none)], [(c!"t", ⟨[], [], []⟩)]⟩
    after.2 = .ok () ∧ fs.file [c!"cfg", c!"ros", c!"src", c!"convert", c!"convert.cpp"] = some (.user c!"code") ∧
    after.1.file [c!"cfg", c!"ros", c!"src", c!"convert", c!"convert.cpp"] = some .empty := by
  refine ⟨rfl, rfl, rfl⟩

/-! ### C52: -clean -/

/-- Every spelling of the current directory is refused, and nothing is touched. -/
theorem C52_dot_refused (cwd : Loc) (fs : Fs) (output : Str) (cfg : GenConfig) (suite : StmSuite)
    (hdot : (normPath output).rooted = false ∧ (normPath output).comps = []) :
    Gen.action cwd fs true output cfg suite = (fs, throwErr .cleanDot) := by
  have : cleanPath output = c!"." := by simp [cleanPath, NPath.render, hdot.1, hdot.2]
  refine action_error ?_
  simp [Gen.maybeClean, this, throwErr]

example : ∀ p ∈ [c!"", c!".", c!"./", c!"a/..", c!".//./b/../"], (normPath p).rooted = false ∧ (normPath p).comps = [] := by decide

theorem cleanSteps_down (cwd : Loc) : ∀ k, (List.replicate k c!"..").foldl (cleanStep true) cwd = cwd.take (cwd.length - k) ∨
    c!".." ∈ cwd := by
  intro k
  by_cases hm : c!".." ∈ cwd
  · exact .inr hm
  left
  induction k generalizing cwd with
  | zero => simp
  | succ k ih =>
    rw [List.replicate_succ, List.foldl_cons]
    have : cleanStep true cwd c!".." = cwd.dropLast := by
      unfold cleanStep
      rw [if_neg (by decide), if_pos rfl]
      cases hl : cwd.getLast? with
      | none => simp at hl; simp [hl]
      | some l =>
        simp only
        rw [if_neg]
        rintro rfl
        exact hm (List.mem_of_getLast? hl)
    rw [this, ih cwd.dropLast (fun h => hm (List.dropLast_subset _ h))]
    rw [List.dropLast_eq_take, List.take_take, List.length_take]
    congr 1; omega

/-- The working directory is removed by -clean exactly when the output path is not a spelling of `.` and leads to the working
directory or to a directory above it. -/
theorem maybeClean_cwd (cwd : Loc) (fs : Fs) (output : Str) (hcwd : fs.isDir cwd = true) (hne : cwd ≠ []) (hdd : c!".." ∉ cwd) :
    (Gen.maybeClean cwd fs true (cleanPath output)).1.isDir cwd = false ↔
      cleanPath output ≠ c!"." ∧ locate cwd output <+: cwd := by
  have hnorm : normPath (cleanPath output) = normPath output := normPath_cleanPath output
  have hloc : locate cwd (cleanPath output) = locate cwd output := locate_cleanPath cwd output
  simp only [Gen.maybeClean, Bool.not_true, Bool.false_eq_true, if_false]
  by_cases hdot : cleanPath output = c!"."
  · rw [if_pos hdot]; simp [hcwd, hdot]
  rw [if_neg hdot]
  simp only [ne_eq, hdot, not_false_eq_true, true_and]
  unfold Fs.removeAll
  rw [hnorm, hloc]
  split
  · rename_i hc
    simp only [Fs.removeTree, hcwd, Bool.true_and, Bool.not_eq_false', Bool.and_eq_true, decide_eq_true_eq, Bool.not_eq_true', decide_eq_false_iff_not]
    constructor
    · exact fun h => h.1
    · intro h
      refine ⟨h, ?_⟩
      intro he
      -- the output is the working directory although it is the root or ends in `..`
      unfold locate at he
      obtain ⟨k, rest, hk, hp, hr⟩ := normPath_normal output
      rcases hc with hc | hc
      · cases hroot : (normPath output).rooted with
        | true => rw [hroot, hc] at he; exact hne he
        | false =>
          exact hdot (by simp [cleanPath, NPath.render, hroot, hc])
      · have hrest : rest = [] := by
          rcases List.eq_nil_or_concat rest with h' | ⟨rest', l, rfl⟩
          · exact h'
          · rw [hk] at hc
            simp only [List.concat_eq_append, ← List.append_assoc, List.getLast?_append, List.getLast?_singleton, Option.some_or,
              Option.some.injEq] at hc
            exact absurd hc (hp l (by simp)).2.2.2
        rw [hrest, List.append_nil] at hk
        cases hroot : (normPath output).rooted with
        | true => rw [hr hroot] at hk; rw [hk] at hc; simp at hc
        | false =>
          rw [hroot, hk] at he
          simp only [Bool.false_eq_true, if_false] at he
          rcases cleanSteps_down cwd k with h1 | h1
          · rw [h1] at he
            have hl := congrArg List.length he
            rw [List.length_take] at hl
            have : cwd.length ≠ 0 := by simpa using hne
            have hk0 : k = 0 := by omega
            rw [hk, hk0] at hc; simp at hc
          · exact hdd h1
  · simp only [Fs.removeTree, hcwd, Bool.true_and, Bool.false_and, Bool.not_false, Bool.and_true, Bool.not_eq_false', decide_eq_true_eq]

/-- C52 does not hold in full (`C52_false`): only the spellings of `.` itself are refused.  What holds: an output path that stays
below the working directory lexically (relative, and not leading up) never removes the working directory or anything on the way to it
or anything not below that path. -/
theorem C52_clean_below_partial (cwd : Loc) (fs : Fs) (output : Str) (cfg : GenConfig) (suite : StmSuite) (hn : PlainNames suite)
    (hrel : (normPath output).rooted = false) (hup : (normPath output).comps.head? ≠ some c!"..") (a : Loc) (ha : a <+: cwd)
    (hdir : fs.isDir a = true) : (Gen.action cwd fs true output cfg suite).1.isDir a = true := by
  by_cases hc : (normPath output).comps = []
  · rw [C52_dot_refused cwd fs output cfg suite ⟨hrel, hc⟩]; exact hdir
  · refine (C49_outside_untouched cwd fs true output cfg suite hn a ?_).2.1 hdir
    intro hin
    obtain ⟨k, rest, hk, hp, hr⟩ := normPath_normal output
    have hk0 : k = 0 := by
      cases k with
      | zero => rfl
      | succ k => rw [hk] at hup; simp [List.replicate_succ] at hup
    subst hk0
    simp only [List.replicate_zero, List.nil_append] at hk
    have hl : locate cwd output = cwd ++ (normPath output).comps := by
      unfold locate
      rw [hrel]
      simp only [Bool.false_eq_true, if_false]
      rw [hk, cleanSteps_plain _ _ hp]
    have h1 := hin.length_le
    rw [hl, List.length_append] at h1
    have h2 := ha.length_le
    have : (normPath output).comps.length ≠ 0 := by simpa using hc
    omega

example : (normPath c!"./out/x").rooted = false ∧ (normPath c!"./out/x").comps.head? ≠ some c!".." := by decide

/-- The working directory is removed by `-clean` before generation exactly for the output paths, other than spellings of `.`, that
lead to it or above it. -/
theorem C52_when_removed (cwd : Loc) (fs : Fs) (output : Str) (hcwd : fs.isDir cwd = true) (hne : cwd ≠ []) (hdd : c!".." ∉ cwd) :
    (Gen.maybeClean cwd fs true (cleanPath output)).1.isDir cwd = false ↔
      cleanPath output ≠ c!"." ∧ locate cwd output <+: cwd :=
  maybeClean_cwd cwd fs output hcwd hne hdd

/-- C52 is false: run in /home/u, `-clean -output ..`, `-output /home/u`, `-output ../u` and `-output /` all remove the working directory
with all it contains. -/
theorem C52_false : let cwd : Loc := [c!"home", c!"u"]
    let fs : Fs := ⟨fun a => decide (a <+: cwd), fun a => if a = [c!"home", c!"u", c!"notes"] then some (.user c!"x") else none⟩
    ∀ output ∈ [c!"..", c!"/home/u", c!"../u", c!"/"],
      (Gen.maybeClean cwd fs true (cleanPath output)).1.isDir cwd = false ∧
      (Gen.maybeClean cwd fs true (cleanPath output)).1.file [c!"home", c!"u", c!"notes"] = none := by decide

/-! ### C53: command lines -/

/-- C53: with an expected count of at least one: the last argument when all are given, `-` when one is missing, and the bad-arguments
error otherwise; no case indexes out of range. -/
theorem C53_parseFileArgument (args : List Str) (n : Nat) (hn : 1 ≤ n) :
    Cli.parseFileArgument args n =
      if h : args.length = n then .ok (args.getLast (by rintro rfl; simp at h; omega))
      else if args.length + 1 = n then .ok c!"-" else throwErr .badArgs := by
  unfold Cli.parseFileArgument
  by_cases h : args.length = n
  · rw [if_pos (by exact_mod_cast h), dif_pos h]
    have h1 : ¬ ((n : Int) - 1 < 0) := by omega
    rw [if_neg h1]
    have h2 : ((n : Int) - 1).toNat = args.length - 1 := by omega
    have hne : args ≠ [] := by rintro rfl; simp at h; omega
    rw [h2, ← List.getLast?_eq_getElem?, List.getLast?_eq_some_getLast hne]
  · rw [if_neg (by exact_mod_cast h), dif_neg h]
    by_cases h' : args.length + 1 = n
    · rw [if_pos (by omega), if_pos h']
    · rw [if_neg (by omega), if_neg h']

/-- C53: the two positional arguments of rtcg-gen: the configuration file, then the optional input; never a panic. -/
theorem C53_genArgs (argv : List Str) :
    Cli.genArgs argv = match argv with
      | [cfg] => .ok (c!"-", cfg)
      | [cfg, input] => .ok (input, cfg)
      | _ => throwErr .badArgs := by
  unfold Cli.genArgs
  rw [show ((2 : Int)) = ((2 : Nat) : Int) from rfl, C53_parseFileArgument argv 2 (by decide)]
  match argv with
  | [] => rfl
  | [a] => rfl
  | [a, b] => rfl
  | a :: b :: c :: rest => simp [throwErr]

/-- The condition on the count is needed: an expected count of zero with no arguments indexes out of range. -/
theorem C53_zero_panics : Cli.parseFileArgument [] 0 = .error .panic := by decide

end Rtcg
