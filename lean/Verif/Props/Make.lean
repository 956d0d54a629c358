import Verif.Proofs.Make
import Verif.Props.Fs
import Verif.Props.Trace
import Verif.Props.Templates

/-
C81–C83: the Makefile, the files the build needs, and the catkin packages.
-/

namespace Rtcg

open Spec Templates

/-! ### C81 -/

/-- C81: when every test name is free of characters special to make or the shell, the Makefile says what it should: its default
target `all` makes the directory and then every test, and each test, in order of name, is compiled from exactly its own main.cpp, the
runtime and (if conversions are configured) the conversion code. -/
theorem C81_makefile_partial (tests : List Str) (ctx : CppConfig.Context) (h : ∀ k ∈ tests, Make.Safe k) :
    ∃ ks : List Str, ks.Perm tests ∧ ks.Pairwise (· ≤ ·) ∧
      Make.read (makefileText tests ctx) = some (Make.expected ctx.hasConversion ks) := by
  refine ⟨sortedKeys tests, List.mergeSort_perm tests _, ?_, Make.read_makefile tests ctx h⟩
  have := List.pairwise_mergeSort (le := fun a b : Str => decide (a ≤ b))
    (fun a b c h1 h2 => by simp only [decide_eq_true_eq] at *; exact List.le_trans h1 h2)
    (fun a b => by simp only [Bool.or_eq_true, decide_eq_true_eq]; exact List.le_total a b) tests
  unfold sortedKeys
  exact this.imp (fun h => by simpa using h)

/-- No two rules make the same thing, for distinct test names. -/
theorem C81_targets_distinct (conv : Bool) (ks : List Str) (h : ks.Nodup) : ((Make.expected conv ks).flatMap (·.targets)).Nodup := by
  have e : (Make.expected conv ks).flatMap (·.targets) = [c!".POSIX", c!".PHONY", c!"all", c!"mkdir"] ++ ks.map (c!"bin/" ++ ·) := by
    unfold Make.expected
    rw [List.flatMap_append]
    congr 1
    induction ks with
    | nil => rfl
    | cons k ks ih =>
      simp only [List.map_cons, List.flatMap_cons, ih (List.nodup_cons.1 h).2]
      rfl
  rw [e, List.nodup_append]
  refine ⟨by decide, h.map (List.append_right_injective _), ?_⟩
  intro a ha b hb
  obtain ⟨k, _, rfl⟩ := List.mem_map.1 hb
  rintro rfl
  simp at ha

/-- The names given to traces without a name, and to those with a safe name, are safe: the Makefile is right for their suite. -/
theorem C81_names_safe (traces : List Forbidden) (h : ∀ t ∈ traces, t.name = [] ∨ Make.Safe t.name) (m : GoMap Str Forbidden)
    (hm : Forbidden.nameAll traces = some m) : ∀ k ∈ m.keys, Make.Safe k := by
  obtain ⟨names, h1, h2, h3, h4, h5⟩ := nameAll_spec traces
  rw [hm] at h2; cases h2
  intro k hk
  have hkeys : GoMap.keys (names.zip traces) = names := List.map_fst_zip (by omega)
  rw [hkeys] at hk
  obtain ⟨i, hi, rfl⟩ := List.mem_iff_getElem.1 hk
  obtain ⟨j, e, _⟩ := h5 i hi (by omega)
  rw [e]
  have hd : ∀ (a : Str) (n : Nat), Make.Safe a → Make.Safe (a ++ decNat n) := by
    intro a n ha
    refine ⟨by simp [ha.1], fun c hc => ?_⟩
    rcases List.mem_append.1 hc with hc | hc
    · exact ha.2 c hc
    · have hb := decNat_digits n c hc
      have hs : ∀ x ∈ Make.special, ¬ ('0' ≤ x ∧ x ≤ '9') := by decide
      exact fun hx => hs c hx hb
  have ht := h traces[i] (List.getElem_mem _)
  unfold candidate
  have htest : Make.Safe "test".toList := by decide
  split
  · exact hd _ _ htest
  · rename_i hn
    rcases ht with ht | ht
    · exact absurd (.inl ht) hn
    · cases j with
      | zero => exact ht
      | succ j => exact hd _ _ ht

/-- The claim is false without the proviso: a trace file can give a test the name `a: b`, and the Makefile for it cannot be read. -/
theorem C81_false : ∃ (t : Forbidden) (m : GoMap Str Forbidden), Forbidden.nameAll [t] = some m ∧
    ∀ ctx : CppConfig.Context, Make.read (makefileText m.keys ctx) = none := by
  refine ⟨⟨c!"a: b", [], ⟨⟨c!"x", .out⟩, .none⟩⟩, [(c!"a: b", _)], rfl, fun ctx => ?_⟩
  obtain ⟨i, c, b⟩ := ctx
  have : sortedKeys (GoMap.keys [(c!"a: b", (⟨c!"a: b", [], ⟨⟨c!"x", .out⟩, .none⟩⟩ : Forbidden))]) = [c!"a: b"] := by
    simp [sortedKeys, GoMap.keys]
  unfold makefileText
  rw [this]
  cases b <;> rfl

example : Make.Safe c!"turn-left_2" ∧ ¬ Make.Safe c!"a b" ∧
    Make.read (makefileText [c!"t"] ⟨[], [], true⟩) = some (Make.expected true [c!"t"]) := by
  refine ⟨by decide, by decide, ?_⟩
  have := Make.read_makefile [c!"t"] ⟨[], [], true⟩ (by decide)
  rw [this]; simp [sortedKeys]

/-! ### C82 -/

/-- Is there a file, looked for from a directory? -/
def Spec.There (fs : Fs) (dir : Loc) (path : Str) : Prop := (fs.file (locate dir path)).isSome

/-- Does an `#include` of the header find a file: first in the directory of the including file, then in those given? -/
def Spec.HeaderFound (fs : Fs) (own : Loc) (dirs : List Loc) (header : Str) : Prop :=
  ∃ d ∈ own :: dirs, (fs.file (locate d header)).isSome

namespace Make82

theorem locate_rel (D : Loc) (p : Str) (cs : List Str) (hr : isRooted p = false) (hs : splitSlash p = cs)
    (hc : ∀ c ∈ cs, Plain c) : locate D p = D ++ cs := by
  have hn : normPath p = ⟨false, cs⟩ := by
    unfold normPath
    rw [hr, hs, cleanSteps_plain _ _ hc]; rfl
  unfold locate
  rw [hn]
  simp only [Bool.false_eq_true, if_false, cleanSteps_plain _ _ hc]

theorem split_src (k rest : Str) (hk : '/' ∉ k) : splitSlash (c!"src/" ++ k ++ '/' :: rest) = [c!"src", k] ++ splitSlash rest := by
  rw [splitSlash_append, show c!"src/" ++ k = c!"src" ++ '/' :: k from rfl, splitSlash_append, splitSlash_plain hk]
  rfl

/-- From a test's directory, one up and into another directory. -/
theorem locate_sibling (D : Loc) {k : Str} (hk : Plain k) (p a b : Str) (ha : Plain a) (hb : Plain b) (hr : isRooted p = false)
    (hs : splitSlash p = [c!"..", a, b]) : locate (D ++ [c!"src", k]) p = D ++ [c!"src", a, b] := by
  have hn : normPath p = ⟨false, [c!"..", a, b]⟩ := by
    unfold normPath
    rw [hr, hs]
    simp only [List.foldl_cons, List.foldl_nil, cleanStep_plain _ _ ha, cleanStep_plain _ _ hb]
    rfl
  unfold locate
  rw [hn]
  simp only [Bool.false_eq_true, if_false, List.foldl_cons, List.foldl_nil, cleanStep_plain _ _ ha, cleanStep_plain _ _ hb]
  have : cleanStep true (D ++ [c!"src", k]) c!".." = D ++ [c!"src"] := by
    unfold cleanStep
    have hl : (D ++ [c!"src", k]).getLast? = some k := by simp
    rw [if_neg (by decide), if_pos rfl, hl]
    simp [hk.2.2.2, List.dropLast_append_of_ne_nil]
  rw [this]
  simp

/-- The conversion code is there after a successful generation that needs it. -/
theorem converted {cwd : Loc} {fs fs' : Fs} {cfg : GenConfig} {out : Str} {suite : StmSuite} (hn : PlainNames suite)
    (hwf : GoMap.WF suite.tests) (hwt : GoMap.WF suite.types) (hv : (cfg.cpps.map (·.variant)).Nodup)
    (hsrc : ∀ c ∈ cfg.cpps, needsConversion suite c → ¬ Inside (locate cwd out) (locate cwd cfg.directory ++ conversionFile c))
    (hok : Gen.run cwd fs (Gen.ops cfg out suite) = (fs', .ok ())) {c : CppConfig.Config} (hc : c ∈ cfg.cpps)
    (hcv : needsConversion suite c) : (fs'.file (locate cwd out ++ conversionFile c)).isSome := by
  rw [(C66_contents cwd fs fs' cfg out suite hn hwf hwt hv hok).2.1 c hc hcv (hsrc c hc hcv)]
  have hB := ((run_ok_iff cwd fs cfg out hn hwt hsrc _ _ (List.Perm.refl _) (List.Perm.refl _)).1 (by
    rw [show cfg.cpps.flatMap _ ++ cfg.cpps.flatMap _ = Gen.ops cfg out suite from rfl, hok])).2
  exact (hB _ ((mem_lwr cwd cfg out hn _).2 ⟨c, hc, .inl ⟨(needsConversion_iff hwt).2 hcv, rfl⟩⟩)).1

end Make82

/-- C82: after a successful generation, everything the Makefile of a configuration wants (for test names that are safe) is made by one
of its rules or is there, seen from the Makefile. -/
theorem C82_makefile (cwd : Loc) (fs fs' : Fs) (cfg : GenConfig) (out : Str) (suite : StmSuite) (hn : PlainNames suite)
    (hwf : GoMap.WF suite.tests) (hwt : GoMap.WF suite.types) (hv : (cfg.cpps.map (·.variant)).Nodup)
    (hsrc : ∀ c ∈ cfg.cpps, needsConversion suite c → ¬ Inside (locate cwd out) (locate cwd cfg.directory ++ conversionFile c))
    (hok : Gen.run cwd fs (Gen.ops cfg out suite) = (fs', .ok ())) (c : CppConfig.Config) (hc : c ∈ cfg.cpps) (hmk : c.makefile = true)
    (hsafe : ∀ k ∈ suite.tests.keys, Make.Safe k) :
    ∃ tests ctx rules, fs'.file (locate cwd out ++ [c.variant.string, c!"Makefile"]) = some (.makefile tests ctx) ∧
      Make.read (makefileText tests ctx) = some rules ∧
      (∀ k ∈ suite.tests.keys, ∃ r ∈ rules, r.targets = [c!"bin/" ++ k]) ∧
      ∀ r ∈ rules, ∀ p ∈ r.prerequisites, (∃ r' ∈ rules, p ∈ r'.targets) ∨ There fs' (locate cwd out ++ [c.variant.string]) p := by
  obtain ⟨hfiles, -, -⟩ := C66_contents cwd fs fs' cfg out suite hn hwf hwt hv hok
  refine ⟨suite.tests.keys, c.process suite.types, _, ?_, Make.read_makefile _ _ hsafe, ?_, ?_⟩
  · exact hfiles c hc ([c!"Makefile"], .makefile suite.tests.keys (c.process suite.types)) (by simp [filesOf, hmk])
  · intro k hk
    refine ⟨Make.testRule (c.process suite.types).hasConversion k, ?_, rfl⟩
    unfold Make.expected
    exact List.mem_append_right _ (List.mem_map_of_mem ((List.mergeSort_perm _ _).mem_iff.2 hk))
  · intro r hr p hp
    unfold Make.expected at hr ⊢
    rcases List.mem_append.1 hr with hr | hr
    · left
      simp only [List.mem_cons, List.not_mem_nil, or_false] at hr
      rcases hr with rfl | rfl | rfl | rfl
      · cases hp
      · rcases List.mem_cons.1 hp with rfl | hp
        · exact ⟨_, List.mem_append_left _ (.tail _ (.tail _ (.head _))), List.mem_singleton.2 rfl⟩
        · cases List.mem_singleton.1 hp
          exact ⟨_, List.mem_append_left _ (.tail _ (.tail _ (.tail _ (.head _)))), List.mem_singleton.2 rfl⟩
      · rcases List.mem_cons.1 hp with rfl | hp
        · exact ⟨_, List.mem_append_left _ (.tail _ (.tail _ (.tail _ (.head _)))), List.mem_singleton.2 rfl⟩
        · obtain ⟨k, hk, rfl⟩ := List.mem_map.1 hp
          exact ⟨_, List.mem_append_right _ (List.mem_map_of_mem hk), List.mem_singleton.2 rfl⟩
      · cases hp
    · right
      obtain ⟨k, hk, rfl⟩ := List.mem_map.1 hr
      have hk' : k ∈ suite.tests.keys := (List.mergeSort_perm _ _).mem_iff.1 hk
      obtain ⟨⟨k', m⟩, hm, rfl⟩ := List.mem_map.1 hk'
      have hkp : Plain k' := hn _ hm
      unfold There
      rcases List.mem_append.1 hp with hp | hp
      · simp only [List.mem_cons, List.not_mem_nil, or_false] at hp
        rcases hp with rfl | rfl
        · rw [Make82.locate_rel _ _ [c!"src", k', c!"src", c!"main.cpp"] rfl
            ((Make82.split_src k' c!"src/main.cpp" hkp.2.1).trans (by rfl)) (by
              intro x hx
              simp only [List.mem_cons, List.not_mem_nil, or_false] at hx
              rcases hx with rfl | rfl | rfl | rfl <;> first | exact hkp | decide)]
          have := hfiles c hc ([c!"src", k', c!"src", c!"main.cpp"], _) (by
            unfold filesOf
            exact List.mem_append_left _ (List.mem_append_left _ (List.mem_append_right _ (List.mem_map_of_mem hm))))
          rw [List.append_assoc, List.singleton_append, this]; rfl
        · rw [Make82.locate_rel _ _ [c!"src", c!"rtcg", c!"rtcg.cpp"] (by decide) (by decide) (by decide)]
          have := hfiles c hc ([c!"src", c!"rtcg", c!"rtcg.cpp"], _) (by
            unfold filesOf
            exact List.mem_append_left _ (List.mem_append_left _ (List.mem_append_left _ (.head _))))
          rw [List.append_assoc, List.singleton_append, this]; rfl
      · by_cases hb : (c.process suite.types).hasConversion = true
        · rw [if_pos hb] at hp
          cases List.mem_singleton.1 hp
          rw [Make82.locate_rel _ _ [c!"src", c!"convert", c!"convert.cpp"] (by decide) (by decide) (by decide)]
          have := Make82.converted hn hwf hwt hv hsrc hok hc ((needsConversion_iff hwt).1 hb)
          rw [List.append_assoc]
          exact this
        · rw [if_neg hb] at hp; cases hp

/-- C82, the rest: what CMakeLists.txt names, and the headers main.cpp includes, are found by both kinds of build, for configurations
that need conversions.  (C82_false: not so for the others.) -/
theorem C82_sources_partial (cwd : Loc) (fs fs' : Fs) (cfg : GenConfig) (out : Str) (suite : StmSuite) (hn : PlainNames suite)
    (hwf : GoMap.WF suite.tests) (hwt : GoMap.WF suite.types) (hv : (cfg.cpps.map (·.variant)).Nodup)
    (hsrc : ∀ c ∈ cfg.cpps, needsConversion suite c → ¬ Inside (locate cwd out) (locate cwd cfg.directory ++ conversionFile c))
    (hok : Gen.run cwd fs (Gen.ops cfg out suite) = (fs', .ok ())) (c : CppConfig.Config) (hc : c ∈ cfg.cpps)
    (hcv : needsConversion suite c) (k : Str) (hk : k ∈ suite.tests.keys) :
    (∀ p ∈ cmakeSources, There fs' (locate cwd out ++ [c.variant.string, c!"src", k]) p) ∧
    (∀ h ∈ headers,
      HeaderFound fs' (locate cwd out ++ [c.variant.string, c!"src", k, c!"src"])
        (cmakeIncludes.map (locate (locate cwd out ++ [c.variant.string, c!"src", k]))) h ∧
      HeaderFound fs' (locate cwd out ++ [c.variant.string, c!"src", k, c!"src"])
        ((Make.includeDirs (c.process suite.types).hasConversion k).map (locate (locate cwd out ++ [c.variant.string]))) h) := by
  obtain ⟨hfiles, -, -⟩ := C66_contents cwd fs fs' cfg out suite hn hwf hwt hv hok
  obtain ⟨⟨k', m⟩, hm, rfl⟩ := List.mem_map.1 hk
  have hkp : Plain k' := hn _ hm
  have hmain := hfiles c hc ([c!"src", k', c!"src", c!"main.cpp"], _) (by
    unfold filesOf
    exact List.mem_append_left _ (List.mem_append_left _ (List.mem_append_right _ (List.mem_map_of_mem hm))))
  have hrt := hfiles c hc ([c!"src", c!"rtcg", c!"rtcg.cpp"], .prelude c!"rtcg.cpp") (by simp [filesOf])
  have hrth := hfiles c hc ([c!"src", c!"rtcg", c!"rtcg.h"], .prelude c!"rtcg.h") (by simp [filesOf])
  have hch := hfiles c hc ([c!"src", c!"convert", c!"convert.h"], .convertH c.variant (c.process suite.types)) (by simp [filesOf])
  have hcc := Make82.converted hn hwf hwt hv hsrc hok hc hcv
  have hb := (needsConversion_iff hwt).2 hcv
  have eD : locate cwd out ++ [c.variant.string, c!"src", k'] = (locate cwd out ++ [c.variant.string]) ++ [c!"src", k'] := by simp
  have eS : ∀ (d : Str), Plain d → ∀ p, isRooted p = false → splitSlash p = [c!"..", d, []] →
      locate (locate cwd out ++ [c.variant.string, c!"src", k']) p = locate cwd out ++ [c.variant.string, c!"src", d] := by
    intro d hd p hr hs
    have hn' : normPath p = ⟨false, [c!"..", d]⟩ := by
      unfold normPath
      rw [hr, hs]
      simp only [List.foldl_cons, List.foldl_nil, cleanStep_plain _ _ hd]
      simp [cleanStep]
    unfold locate
    rw [hn']
    simp only [Bool.false_eq_true, if_false, List.foldl_cons, List.foldl_nil, cleanStep_plain _ _ hd]
    have : cleanStep true ((if (normPath out).rooted then (normPath out).comps else (normPath out).comps.foldl (cleanStep true) cwd) ++
        [c.variant.string, c!"src", k']) c!".." =
        (if (normPath out).rooted then (normPath out).comps else (normPath out).comps.foldl (cleanStep true) cwd) ++ [c.variant.string, c!"src"] := by
      generalize (if (normPath out).rooted then (normPath out).comps else (normPath out).comps.foldl (cleanStep true) cwd) = L
      unfold cleanStep
      have hl : (L ++ [c.variant.string, c!"src", k']).getLast? = some k' := by simp
      rw [if_neg (by decide), if_pos rfl, hl]
      simp [hkp.2.2.2, List.dropLast_append_of_ne_nil]
    rw [this]
    simp
  constructor
  · intro p hp
    unfold There
    simp only [cmakeSources, List.mem_cons, List.not_mem_nil, or_false] at hp
    rcases hp with rfl | rfl | rfl
    · rw [eD, Make82.locate_sibling _ hkp _ c!"convert" c!"convert.cpp" (by decide) (by decide) (by decide) (by decide)]
      rw [List.append_assoc]; exact hcc
    · rw [eD, Make82.locate_sibling _ hkp _ c!"rtcg" c!"rtcg.cpp" (by decide) (by decide) (by decide) (by decide)]
      rw [List.append_assoc, List.singleton_append, hrt]; rfl
    · rw [Make82.locate_rel _ _ [c!"src", c!"main.cpp"] (by decide) (by decide) (by decide)]
      rw [List.append_assoc]
      rw [show [c.variant.string, c!"src", k'] ++ [c!"src", c!"main.cpp"] = c.variant.string :: [c!"src", k', c!"src", c!"main.cpp"] from rfl, hmain]
      rfl
  · have hfound : ∀ d h, locate d h = d ++ [h] → (fs'.file (d ++ [h])).isSome → (fs'.file (locate d h)).isSome := by
      intro d h e hs; rw [e]; exact hs
    have e1 : (fs'.file (locate (locate cwd out ++ [c.variant.string, c!"src", c!"rtcg"]) c!"rtcg.h")).isSome := by
      rw [Make82.locate_rel _ _ [c!"rtcg.h"] (by decide) (by decide) (by decide), List.append_assoc,
        show [c.variant.string, c!"src", c!"rtcg"] ++ [c!"rtcg.h"] = c.variant.string :: [c!"src", c!"rtcg", c!"rtcg.h"] from rfl, hrth]; rfl
    have e2 : (fs'.file (locate (locate cwd out ++ [c.variant.string, c!"src", c!"convert"]) c!"convert.h")).isSome := by
      rw [Make82.locate_rel _ _ [c!"convert.h"] (by decide) (by decide) (by decide), List.append_assoc,
        show [c.variant.string, c!"src", c!"convert"] ++ [c!"convert.h"] = c.variant.string :: [c!"src", c!"convert", c!"convert.h"] from rfl, hch]; rfl
    have m1 : locate (locate cwd out ++ [c.variant.string]) c!"src/rtcg" = locate cwd out ++ [c.variant.string, c!"src", c!"rtcg"] := by
      rw [Make82.locate_rel _ _ [c!"src", c!"rtcg"] (by decide) (by decide) (by decide)]; simp
    have m2 : locate (locate cwd out ++ [c.variant.string]) c!"src/convert" = locate cwd out ++ [c.variant.string, c!"src", c!"convert"] := by
      rw [Make82.locate_rel _ _ [c!"src", c!"convert"] (by decide) (by decide) (by decide)]; simp
    intro h hh
    simp only [headers, List.mem_cons, List.not_mem_nil, or_false] at hh
    rcases hh with rfl | rfl
    · refine ⟨⟨_, List.mem_cons_of_mem _ (List.mem_map_of_mem (a := c!"../rtcg/") (by simp [cmakeIncludes])), ?_⟩,
        ⟨_, List.mem_cons_of_mem _ (List.mem_map_of_mem (a := c!"src/rtcg") (by simp [Make.includeDirs])), ?_⟩⟩
      · rw [eS c!"rtcg" (by decide) _ (by decide) (by decide)]; exact e1
      · rw [m1]; exact e1
    · refine ⟨⟨_, List.mem_cons_of_mem _ (List.mem_map_of_mem (a := c!"../convert/") (by simp [cmakeIncludes])), ?_⟩,
        ⟨_, List.mem_cons_of_mem _ (List.mem_map_of_mem (a := c!"src/convert") (by simp [Make.includeDirs, hb])), ?_⟩⟩
      · rw [eS c!"convert" (by decide) _ (by decide) (by decide)]; exact e2
      · rw [m2]; exact e2

/-- From an empty place, and without a test called `convert`, generation only succeeds when every configuration needs conversions; so
then all is found. -/
theorem C82_from_empty (cwd : Loc) (fs : Fs) (cfg : GenConfig) (out : Str) (suite : StmSuite) (hn : PlainNames suite)
    (hwt : GoMap.WF suite.types) (hv : (cfg.cpps.map (·.variant)).Nodup) (hempty : EmptyAt fs (locate cwd out))
    (hsrc : ∀ c ∈ cfg.cpps, needsConversion suite c → ¬ Inside (locate cwd out) (locate cwd cfg.directory ++ conversionFile c))
    (hno : c!"convert" ∉ suite.tests.keys) (hok : (Gen.run cwd fs (Gen.ops cfg out suite)).2 = .ok ()) :
    ∀ c ∈ cfg.cpps, needsConversion suite c := by
  have := (C50_succeeds_from_empty_partial cwd fs cfg out suite hn hwt hv hempty hsrc _ _ (List.Perm.refl _) (List.Perm.refl _)).1 hok
  intro c hc
  rcases (this c hc).1 with h | h
  · exact h
  · exact absurd h hno

/-- C82 is false in general: with one test, called `convert`, and no conversions, generation succeeds; but CMakeLists.txt names a
convert.cpp that is not there, and the Makefile's compilation does not find convert.h. -/
theorem C82_false : ∃ (c : CppConfig.Config) (fs' : Fs), c.makefile = true ∧ c.catkin = some none ∧ PlainNames (oneTest c!"convert") ∧
    EmptyAt emptyFs (locate [] c!"out") ∧
    Gen.run [] emptyFs (Gen.ops ⟨[c], c!"cfg"⟩ c!"out" (oneTest c!"convert")) = (fs', .ok ()) ∧
    ¬ There fs' (locate [] c!"out" ++ [c.variant.string, c!"src", c!"convert"]) c!"../convert/convert.cpp" ∧
    c!"../convert/convert.cpp" ∈ cmakeSources ∧
    ¬ HeaderFound fs' (locate [] c!"out" ++ [c.variant.string, c!"src", c!"convert", c!"src"])
        ((Make.includeDirs (c.process []).hasConversion c!"convert").map (locate (locate [] c!"out" ++ [c.variant.string]))) c!"convert.h" ∧
    c!"convert.h" ∈ headers := by
  refine ⟨⟨Variant.ros, [], [], true, some none⟩, _, rfl, rfl, ?_, ⟨fun _ _ => rfl, fun a h hne => ⟨rfl, ?_⟩⟩, rfl, ?_, by decide, ?_, by decide⟩
  · intro nt h; rw [List.mem_singleton.1 h]; decide
  · simp only [emptyFs, decide_eq_false_iff_not]
    rintro rfl
    simp at h
    exact hne h.symm
  · unfold There; decide
  · unfold HeaderFound; decide

/-! ### C83 -/

namespace Make83

theorem intercalate_cons2 (g x y : Str) (rest : List Str) :
    List.intercalate g (x :: y :: rest) = x ++ (g ++ List.intercalate g (y :: rest)) := by
  simp [List.intercalate, List.intersperse]

theorem intercalate_length (g : Str) : ∀ (y : Str) (rest : List Str),
    (List.intercalate g (y :: rest)).length = ((y :: rest).map List.length).sum + rest.length * g.length
  | y, [] => by simp [List.intercalate]
  | y, z :: rest => by
    rw [intercalate_cons2, List.length_append, List.length_append, intercalate_length g z rest]
    simp only [List.map_cons, List.sum_cons, List.length_cons, Nat.add_mul]
    omega

theorem intercalate_inj {a b : Str} (x y : Str) (rest : List Str)
    (h : List.intercalate a (x :: y :: rest) = List.intercalate b (x :: y :: rest)) : a = b := by
  have hl : a.length = b.length := by
    have := congrArg List.length h
    rw [intercalate_length, intercalate_length] at this
    have h2 : (y :: rest).length * a.length = (y :: rest).length * b.length := by omega
    exact Nat.eq_of_mul_eq_mul_left (by simp) h2
  rw [intercalate_cons2, intercalate_cons2] at h
  exact (List.append_inj (List.append_cancel_left h) hl).1

end Make83

/-- C83: two tests get packages of the same name only if the configured name does not mention the placeholder. -/
theorem C83_package_names (pkg : Option Catkin.Package) (a b : Str) :
    (Catkin.forTest pkg a).name = (Catkin.forTest pkg b).name ↔ a = b ∨ ¬ placeholder <:+: (Catkin.configured pkg).name := by
  obtain ⟨segs, h1, h2, h3⟩ := (C47_expand (Catkin.configured pkg) a).1
  have h4 := C47_replaced_unique (C47_expand (Catkin.configured pkg) b).1 ⟨segs, h1, h2, rfl⟩
  unfold Catkin.forTest
  rw [h3, h4]
  match segs, h1, h2 with
  | [], h1, _ =>
    rw [h1]
    simp [List.intercalate, placeholder]
  | [x], h1, h2 =>
    have : List.intercalate placeholder [x] = x := by simp [List.intercalate]
    rw [this] at h1
    rw [h1]
    have h5 := h2 x (by simp)
    simp [List.intercalate, h5]
  | x :: y :: rest, h1, _ =>
    constructor
    · intro h; exact .inl (Make83.intercalate_inj x y rest h)
    · rintro (rfl | h)
      · rfl
      · refine absurd ?_ h
        rw [h1, Make83.intercalate_cons2]
        exact ⟨x, _, by rw [List.append_assoc]⟩

/-- Without a configured package every test's package is named after it. -/
theorem C83_default (a b : Str) : (Catkin.forTest none a).name = (Catkin.forTest none b).name ↔ a = b := by
  rw [(C47_default_package a).1, (C47_default_package b).1]

/-- The whole claim, that the packages can share a workspace, is false: the build targets of the packages are distinct only when there
is at most one test, since each package defines the libraries `convert` and `rtcg`. -/
theorem C83_targets_partial (pkg : Option Catkin.Package) (tests : List Str) :
    (tests.flatMap (fun t => cmakeTargets (Catkin.forTest pkg t))).Nodup ↔ tests.length ≤ 1 := by
  match tests with
  | [] => simp
  | [t] =>
    simp only [List.flatMap_cons, List.flatMap_nil, List.append_nil, List.length_singleton, Nat.le_refl, iff_true]
    generalize (Catkin.forTest pkg t) = p
    have h : ∀ s : Str, s ++ c!"_node" ≠ c!"convert" ∧ s ++ c!"_node" ≠ c!"rtcg" := by
      intro s
      constructor <;> intro e <;> have := congrArg (fun l => l.getLast?) e <;> simp at this
    unfold cmakeTargets
    simp [Ne.symm (h p.name).1, Ne.symm (h p.name).2]
  | t :: u :: rest =>
    simp only [List.length_cons]
    constructor
    · intro h
      simp only [List.flatMap_cons, cmakeTargets] at h
      simp at h
    · intro h; omega

/-- Witness: two tests, both packages define `convert`. -/
theorem C83_false : ¬ ([c!"a", c!"b"].flatMap (fun t => cmakeTargets (Catkin.forTest none t))).Nodup := by
  rw [C83_targets_partial]; decide

example : (Catkin.forTest (some { Catkin.Package.zero with name := c!"rtcg_${NAME}_pkg" }) c!"a").name = c!"rtcg_a_pkg" := by decide

end Rtcg
