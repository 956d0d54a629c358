import Mathlib.Tactic.Tauto
import Verif.Proofs.CMake
import Verif.Props.Make
import Verif.Props.Xml

/-
C98 and C99: what the generated CMakeLists.txt tells CMake and catkin.
-/

namespace Rtcg

open Spec Templates

/-! ### C98 -/

/-- C98: when the name of the package and the names of what it depends on are such as catkin allows, CMake understands CMakeLists.txt as
intended: a project named after the package, needing what the package depends on, with one program made from main.cpp, the runtime and
the conversion code. -/
theorem C98_cmake_partial (vars : CMake.Vars) (p : Catkin.Package) (hn : CMake.isName p.name = true)
    (hd : ∀ d ∈ p.depends, CMake.isPackage d = true) :
    CMake.run vars (cmakeText p) = some (CMake.expected vars p.name p.depends) := CMakeProofs.run_cmake hn hd

/-- The sources and targets that CMake finds in the file are those that C82 and C83 are about, and the directories searched for headers
are those of C82 and those of catkin. -/
theorem C98_what_it_names (vars : CMake.Vars) (p : Catkin.Package) (b : CMake.Build) (hn : CMake.isName p.name = true)
    (hd : ∀ d ∈ p.depends, CMake.isPackage d = true) (h : CMake.run vars (cmakeText p) = some b) :
    b.targets = cmakeTargets p ∧ (∀ s, s ∈ b.sources ↔ s ∈ cmakeSources) ∧
    ∀ d, d ∈ b.includes ↔ d ∈ cmakeIncludes ∨ d ∈ CMake.elements (vars c!"catkin_INCLUDE_DIRS") := by
  rw [C98_cmake_partial vars p hn hd] at h
  cases h
  refine ⟨rfl, fun s => ?_, fun d => ?_⟩
  · simp only [CMake.Build.sources, CMake.expected, cmakeSources, List.flatMap_cons, List.flatMap_nil, List.append_nil, List.mem_append,
      List.mem_cons, List.not_mem_nil, or_false]
    constructor
    · rintro ((h | h) | h | h | h) <;> simp [h]
    · rintro (h | h | h) <;> simp [h]
  · simp only [CMake.expected, cmakeIncludes, List.mem_append, List.mem_cons, List.not_mem_nil, or_false]
    tauto

/-- The name of a test whose trace has a good name, or none, is a good name; so is that of its package, if none is configured. -/
theorem C98_names (traces : List Forbidden) (h : ∀ t ∈ traces, t.name = [] ∨ CMake.isName t.name = true) (m : GoMap Str Forbidden)
    (hm : Forbidden.nameAll traces = some m) :
    ∀ k ∈ m.keys, CMake.isName k = true ∧ CMake.isName (Catkin.forTest none k).name = true := by
  obtain ⟨names, h1, h2, h3, h4, h5⟩ := nameAll_spec traces
  rw [hm] at h2; cases h2
  intro k hk
  rw [(C47_default_package k).1]
  refine (and_self_iff).2 ?_
  have hkeys : GoMap.keys (names.zip traces) = names := List.map_fst_zip (by omega)
  rw [hkeys] at hk
  obtain ⟨i, hi, rfl⟩ := List.mem_iff_getElem.1 hk
  obtain ⟨j, e, _⟩ := h5 i hi (by omega)
  rw [e]
  have hd : ∀ (a : Str) (n : Nat), CMake.isName a = true → CMake.isName (a ++ decNat n) = true := by
    intro a n ha
    simp only [CMake.isName, Bool.and_eq_true, Bool.not_eq_true', List.isEmpty_eq_false_iff, List.all_eq_true] at ha ⊢
    refine ⟨by simp [ha.1], fun c hc => ?_⟩
    rcases List.mem_append.1 hc with hc | hc
    · exact ha.2 c hc
    · have hb := decNat_digits n c hc
      simp [CMake.isNameChar, CMake.isIdent, hb.1, hb.2]
  have ht := h traces[i] (List.getElem_mem _)
  unfold candidate
  have htest : CMake.isName "test".toList = true := by decide
  split
  · exact hd _ _ htest
  · rename_i hn
    rcases ht with ht | ht
    · exact absurd (.inl ht) hn
    · cases j with
      | zero => exact ht
      | succ j => exact hd _ _ ht

/-- C98: after a successful generation with conversions, the CMakeLists.txt of each test is there; CMake understands it; every source it
names is there; and the headers of main.cpp are found in the directories it names. -/
theorem C98_generated_partial (T : TextLayer) (vars : CMake.Vars) (cwd : Loc) (fs fs' : Fs) (cfg : GenConfig) (out : Str) (suite : StmSuite)
    (hn : PlainNames suite) (hwf : GoMap.WF suite.tests) (hwt : GoMap.WF suite.types) (hv : (cfg.cpps.map (·.variant)).Nodup)
    (hsrc : ∀ c ∈ cfg.cpps, needsConversion suite c → ¬ Inside (locate cwd out) (locate cwd cfg.directory ++ conversionFile c))
    (hok : Gen.run cwd fs (Gen.ops cfg out suite) = (fs', .ok ())) (c : CppConfig.Config) (hc : c ∈ cfg.cpps)
    (hcv : needsConversion suite c) (pkg : Option Catkin.Package) (hk : c.catkin = some pkg) (test : Str) (ht : test ∈ suite.tests.keys)
    (hname : CMake.isName (Catkin.forTest pkg test).name = true) (hdep : ∀ d ∈ (Catkin.forTest pkg test).depends, CMake.isPackage d = true) :
    ∃ file b, fs'.file (locate cwd out ++ [c.variant.string, c!"src", test, c!"CMakeLists.txt"]) = some file ∧
      CMake.run vars (T.text file) = some b ∧
      b.project = (Catkin.forTest pkg test).name ∧
      (∀ s ∈ b.sources, There fs' (locate cwd out ++ [c.variant.string, c!"src", test]) s) ∧
      (∃ srcs, b.programs = [((Catkin.forTest pkg test).name ++ c!"_node", srcs)] ∧
        ∀ s, s ∈ srcs ↔ s ∈ [c!"src/main.cpp", c!"../rtcg/rtcg.cpp", c!"../convert/convert.cpp"]) ∧
      ∀ h ∈ headers, HeaderFound fs' (locate cwd out ++ [c.variant.string, c!"src", test, c!"src"])
        (b.includes.map (locate (locate cwd out ++ [c.variant.string, c!"src", test]))) h := by
  have hrun := C98_cmake_partial vars _ hname hdep
  obtain ⟨-, hs, hi⟩ := C98_what_it_names vars _ _ hname hdep hrun
  obtain ⟨h1, h2⟩ := C82_sources_partial cwd fs fs' cfg out suite hn hwf hwt hv hsrc hok c hc hcv test ht
  have hsrcs : ∀ s, s ∈ [c!"src/main.cpp", c!"../convert/convert.cpp", c!"../rtcg/rtcg.cpp"] ↔
      s ∈ [c!"src/main.cpp", c!"../rtcg/rtcg.cpp", c!"../convert/convert.cpp"] := by
    intro s
    simp only [List.mem_cons, List.not_mem_nil, or_false]
    rw [or_comm (a := s = c!"../convert/convert.cpp")]
  refine ⟨.cmake (Catkin.forTest pkg test), _, ?_, hrun, rfl, fun s h => h1 s ((hs s).1 h), ⟨_, rfl, hsrcs⟩, fun h hh => ?_⟩
  · obtain ⟨⟨k, stm⟩, hm, rfl⟩ := List.mem_map.1 ht
    refine (C66_contents cwd fs fs' cfg out suite hn hwf hwt hv hok).1 c hc ([c!"src", k, c!"CMakeLists.txt"], _) ?_
    simp only [filesOf, hk, List.mem_append, List.mem_flatMap]
    exact .inl (.inr ⟨_, hm, by simp⟩)
  · obtain ⟨d, hd, hf⟩ := (h2 h hh).1
    refine ⟨d, ?_, hf⟩
    rcases List.mem_cons.1 hd with rfl | hd
    · exact List.mem_cons_self
    · obtain ⟨x, hx, rfl⟩ := List.mem_map.1 hd
      exact List.mem_cons_of_mem _ (List.mem_map_of_mem ((hi x).2 (.inl hx)))

/-- The claim is false for other names: a test can be called `a b`, and CMake would not read its file as a project of that name; and one
called `a(b` gives a file that CMake cannot read at all. -/
theorem C98_false (vars : CMake.Vars) : ∀ k ∈ [c!"a b", c!"a(b"], (∃ t m, Forbidden.nameAll [t] = some m ∧ m.keys = [k]) ∧
    CMake.run vars (cmakeText (Catkin.forTest none k)) = none := by
  intro k hk
  have hkeys : ∃ t m, Forbidden.nameAll [t] = some m ∧ m.keys = [k] := by
    refine ⟨⟨k, [], ⟨⟨c!"x", .out⟩, .none⟩⟩, [(k, ⟨k, [], ⟨⟨c!"x", .out⟩, .none⟩⟩)], ?_, rfl⟩
    simp only [List.mem_cons, List.not_mem_nil, or_false] at hk
    rcases hk with rfl | rfl <;> rfl
  refine ⟨hkeys, ?_⟩
  simp only [List.mem_cons, List.not_mem_nil, or_false] at hk
  rcases hk with rfl | rfl
  · have h : (CMake.read (cmakeText (Catkin.forTest none c!"a b"))).map (·.take 2) = some [⟨c!"cmake_minimum_required",
        [⟨false, c!"VERSION"⟩, ⟨false, c!"3.0.2"⟩]⟩, ⟨c!"project", [⟨false, c!"a"⟩, ⟨false, c!"b"⟩]⟩] := by decide +kernel
    unfold CMake.run
    generalize CMake.read (cmakeText (Catkin.forTest none c!"a b")) = r at h
    match r, h with
    | some (x :: y :: l), h =>
      simp only [Option.map_some, List.take_succ_cons, List.take_zero, Option.some.injEq, List.cons.injEq, and_true] at h
      obtain ⟨rfl, rfl⟩ := h
      have h2 : CMake.exec vars CMake.Build.none ⟨c!"project", [⟨false, c!"a"⟩, ⟨false, c!"b"⟩]⟩ = none := rfl
      rw [Option.bind_some, CMakeProofs.exec_then (vs := [c!"VERSION", c!"3.0.2"]) _ rfl (CMakeProofs.act_minimum rfl), CMake.execAll, h2]
      rfl
  · have h : CMake.read (cmakeText (Catkin.forTest none c!"a(b")) = none := by decide +kernel
    rw [CMake.run, h]; rfl

/-! ### C99 -/

/-- C99, the whole claim: whatever CMakeLists.txt says the package needs, its package.xml declares as a dependency.  It holds exactly if
the configured package depends on `roscpp` and `std_msgs`. -/
theorem C99_declared_partial (vars : CMake.Vars) (pkg : Option Catkin.Package) (test : Str) (b : CMake.Build)
    (hn : CMake.isName (Catkin.forTest pkg test).name = true) (hd : ∀ d ∈ (Catkin.forTest pkg test).depends, CMake.isPackage d = true)
    (h : CMake.run vars (cmakeText (Catkin.forTest pkg test)) = some b) :
    ((∀ n ∈ b.needs ++ b.exports, n ∈ (Catkin.forTest pkg test).depends) ↔
      ∃ p, pkg = some p ∧ c!"roscpp" ∈ p.depends ∧ c!"std_msgs" ∈ p.depends) ∧
    ∀ n ∈ (Catkin.forTest pkg test).depends, n ∈ b.needs ∧ n ∈ b.exports := by
  rw [C98_cmake_partial vars _ hn hd] at h
  cases h
  have e : (Catkin.forTest pkg test).depends = (pkg.getD Catkin.Package.zero).depends := rfl
  rw [e]
  refine ⟨⟨fun h => ?_, ?_⟩, fun n h => ⟨?_, ?_⟩⟩
  · have h1 := h c!"roscpp" (by simp [CMake.expected])
    have h2 := h c!"std_msgs" (by simp [CMake.expected])
    cases pkg with
    | none => simp [Catkin.Package.zero] at h1
    | some p => exact ⟨p, rfl, h1, h2⟩
  · rintro ⟨p, rfl, h1, h2⟩ n hn
    simp only [CMake.expected, List.mem_append, List.mem_cons, List.not_mem_nil, or_false, Option.getD_some] at hn ⊢
    rcases hn with ((rfl | rfl) | hn) | ((rfl | rfl) | hn) <;> assumption
  · simp [CMake.expected, h]
  · simp [CMake.expected, h]

/-- C99 is false: with no package configured CMakeLists.txt needs `roscpp`, and package.xml does not declare it. -/
theorem C99_false (T : TextLayer) (vars : CMake.Vars) : ∃ test b attrs kids,
    CMake.run vars (cmakeText (Catkin.forTest none test)) = some b ∧ c!"roscpp" ∈ b.needs ∧
    XmlText.Document T.names (T.text (.packageXml (Catkin.forTest none test))) (.elem c!"package" attrs kids) ∧
    ConfigXml.named c!"depend" kids = [] := by
  have hx : ∀ x ∈ c!"t", XmlText.XmlChar x := by decide
  obtain ⟨⟨attrs, kids, hd, hi⟩, -⟩ := C96_faithful T.names _ (forTest_fits (pkg := none) (by simp) hx)
  refine ⟨c!"t", _, attrs, kids, C98_cmake_partial vars _ (by decide +kernel) (by decide +kernel), by simp [CMake.expected], hd, ?_⟩
  have := hi.depends
  simp only [List.flatMap_cons, List.flatMap_nil, List.append_nil] at this
  exact List.map_eq_nil_iff.1 this.symm

/-- The premises of C98 and C99 are met: a package with a placeholder in its name that depends on `sensor_msgs`. -/
example : let p := Catkin.forTest (some { Catkin.Package.zero with name := c!"rtcg_${NAME}", depends := [c!"roscpp", c!"std_msgs", c!"sensor_msgs"] }) c!"turn-2"
    p.name = c!"rtcg_turn-2" ∧ CMake.isName p.name = true ∧ ∀ d ∈ p.depends, CMake.isPackage d = true := by decide +kernel

end Rtcg
