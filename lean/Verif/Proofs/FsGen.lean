import Verif.Proofs.Fs
import Verif.Proofs.Text
import Verif.Props.Gen

/-
The generator's operations with their paths resolved.
-/

namespace Rtcg

open Spec

theorem locate_join1 (cwd : Loc) (a : Str) {b : Str} (hb : Plain b) : locate cwd (joinPath [a, b]) = locate cwd a ++ [b] :=
  locate_join cwd a [b] (by simpa using hb)

theorem locate_join2 (cwd : Loc) (a : Str) {b c : Str} (hb : Plain b) (hc : Plain c) :
    locate cwd (joinPath [a, b, c]) = locate cwd a ++ [b, c] :=
  locate_join cwd a [b, c] (by simp [hb, hc])

theorem locate_join_rel (cwd : Loc) (a b : Str) (cs : List Str) (hr : isRooted b = false) (hs : splitSlash b = cs)
    (hc : ∀ c ∈ cs, Plain c) : locate cwd (joinPath [a, b]) = locate cwd a ++ cs := by
  unfold locate
  rw [normPath_join a [b] (by simpa using hr)]
  have : [b].flatMap splitSlash = cs := by simpa using hs
  rw [this, cleanSteps_plain _ _ hc]
  cases (normPath a).rooted with
  | true => rfl
  | false => simp only [Bool.false_eq_true, if_false, List.foldl_append, cleanSteps_plain _ _ hc]

theorem joinPath_skip (a f : Str) : joinPath [a, c!"", f] = joinPath [a, f] := by
  simp [joinPath, List.filter_cons]

theorem variant_cases (v : Variant) : v.string = c!"animate" ∧ v = Variant.animate ∨ v.string = c!"ros" ∧ v = Variant.ros ∨
    v.string = c!"Variant(" ++ decNat v.val.toNat ++ c!")" := by
  obtain ⟨x⟩ := v
  by_cases h0 : x = 0
  · subst h0; exact .inl ⟨rfl, rfl⟩
  by_cases h1 : x = 1
  · subst h1; exact .inr (.inl ⟨rfl, rfl⟩)
  · refine .inr (.inr ?_)
    have : GoMap.get? [((0 : UInt8), c!"animate"), (1, c!"ros")] x = none := by
      simp [GoMap.get?, Ne.symm h0, Ne.symm h1]
    simp only [Variant.string, EnumTables.string, Variant.tables, this]
    rfl

theorem variant_plain (v : Variant) : Plain v.string := by
  rcases variant_cases v with ⟨h, -⟩ | ⟨h, -⟩ | h
  · rw [h]; decide
  · rw [h]; decide
  · rw [h]
    refine ⟨by simp, ?_, by simp, by simp⟩
    intro hm
    rcases List.mem_append.1 hm with hm | hm
    · rcases List.mem_append.1 hm with hm | hm
      · revert hm; decide
      · have := decNat_digits _ _ hm
        exact absurd this (by decide)
    · revert hm; decide

theorem variant_string_inj {v w : Variant} (h : v.string = w.string) : v = w := by
  rcases variant_cases v with ⟨hv, ev⟩ | ⟨hv, ev⟩ | hv <;> rcases variant_cases w with ⟨hw, ew⟩ | ⟨hw, ew⟩ | hw <;>
    rw [hv, hw] at h
  · rw [ev, ew]
  · exact absurd h (by decide)
  · exact absurd h (by simp)
  · exact absurd h (by decide)
  · rw [ev, ew]
  · exact absurd h (by simp)
  · exact absurd h (by simp)
  · exact absurd h (by simp)
  · have : v.val.toNat = w.val.toNat := by
      refine decNat_inj ?_
      have := List.append_cancel_right h
      exact List.append_cancel_left this
    obtain ⟨v⟩ := v
    obtain ⟨w⟩ := w
    congr 1
    exact UInt8.toNat_inj.1 this

/-- The directory of a configuration. -/
def vdir (cwd : Loc) (out : Str) (c : CppConfig.Config) : Loc := locate cwd out ++ [c.variant.string]

theorem locate_vdir (cwd : Loc) (dirs : DirSet) (c : CppConfig.Config) :
    locate cwd (Gen.variantDirs dirs c).output = vdir cwd dirs.output c ∧
    locate cwd (Gen.variantDirs dirs c).input = vdir cwd dirs.input c :=
  ⟨locate_join1 _ _ (variant_plain _), locate_join1 _ _ (variant_plain _)⟩

theorem locate_subdir (cwd : Loc) (dirs : DirSet) {s : Str} (h : Plain s) :
    locate cwd (dirs.subdir s).output = locate cwd dirs.output ++ [s] ∧ locate cwd (dirs.subdir s).input = locate cwd dirs.input ++ [s] :=
  ⟨locate_join1 _ _ h, locate_join1 _ _ h⟩

theorem locate_outputPath (cwd : Loc) (dirs : DirSet) {s : Str} (h : Plain s) :
    locate cwd (dirs.outputPath s) = locate cwd dirs.output ++ [s] := locate_join1 _ _ h

/-- The directories made for a configuration, below its directory. -/
def dirRests (suite : StmSuite) (c : CppConfig.Config) : List (List Str) :=
  [c!"src", c!"rtcg"] :: (if (c.process suite.types).hasConversion then [[c!"src", c!"convert"]] else []) ++
    suite.tests.flatMap (fun nt => [[c!"src", nt.1, c!"include"], [c!"src", nt.1, c!"src"]])

theorem plain_src : Plain c!"src" := by decide

theorem map_flatMap_congr {α β γ : Type} (l : List α) (f : α → List β) (g : β → γ) (h : α → List γ)
    (e : ∀ a ∈ l, (f a).map g = h a) : (l.flatMap f).map g = l.flatMap h := by
  induction l with
  | nil => rfl
  | cons a l ih => rw [List.flatMap_cons, List.map_append, e a (by simp), ih (fun b hb => e b (by simp [hb]))]; rfl

theorem resolve_mkdirOps (cwd : Loc) (dirs : DirSet) (suite : StmSuite) (c : CppConfig.Config) (hn : PlainNames suite) :
    (Gen.mkdirOps dirs suite c).map (Op.resolve cwd) =
      (dirRests suite c).map (fun r => LOp.mkdir (vdir cwd dirs.output c ++ r)) := by
  have hsrc : locate cwd ((Gen.variantDirs dirs c).subdir c!"src").output = vdir cwd dirs.output c ++ [c!"src"] := by
    rw [(locate_subdir cwd _ plain_src).1, (locate_vdir cwd dirs c).1]
  unfold Gen.mkdirOps CppGen.dirs dirRests
  generalize hS : (Gen.variantDirs dirs c).subdir c!"src" = S at hsrc
  simp only [List.map_cons, List.map_append, List.cons_append, List.map_map]
  congr 1
  · simp only [Function.comp, Op.resolve]
    rw [locate_outputPath cwd S (by decide : Plain c!"rtcg"), hsrc, List.append_assoc]
    rfl
  congr 1
  · split
    · simp only [List.map_cons, List.map_nil, Function.comp, Op.resolve]
      rw [locate_outputPath cwd S (by decide : Plain c!"convert"), hsrc, List.append_assoc]
      rfl
    · rfl
  · rw [map_flatMap_congr _ _ _ _ (fun a ha => rfl), map_flatMap_congr _ _ _ _ (fun a ha => rfl)]
    refine List.flatMap_congr fun nt hnt => ?_
    have hp := hn nt hnt
    simp only [CppGen.testDirs, List.map_cons, List.map_nil, Function.comp, Op.resolve]
    rw [locate_outputPath cwd _ (by decide : Plain c!"include"), locate_outputPath cwd _ plain_src, (locate_subdir cwd S hp).1, hsrc]
    simp

/-- The file operations of a configuration, resolved. -/
def copyOps (cwd : Loc) (dirs : DirSet) (suite : StmSuite) (c : CppConfig.Config) : List LOp :=
  if (c.process suite.types).hasConversion then
    [LOp.copy (locate cwd dirs.input ++ conversionFile c) (locate cwd dirs.output ++ conversionFile c)] else []

theorem perm_swap4 {α : Type} (a b c d e f : List α) :
    (a ++ (b ++ c) ++ d ++ e ++ f).Perm (b ++ (a ++ c ++ d ++ e ++ f)) := by
  have : (a ++ b).Perm (b ++ a) := List.perm_append_comm
  have := this.append_right (c ++ d ++ e ++ f)
  simpa [List.append_assoc] using this

theorem resolve_writeOps (cwd : Loc) (dirs : DirSet) (suite : StmSuite) (c : CppConfig.Config) (hn : PlainNames suite) :
    ((Gen.writeOps dirs suite c).map (Op.resolve cwd)).Perm
      (copyOps cwd dirs suite c ++ (filesOf suite c).map (fun rc => LOp.write (vdir cwd dirs.output c ++ rc.1) rc.2)) := by
  have hv := (locate_vdir cwd dirs c).1
  have hsrc : locate cwd ((Gen.variantDirs dirs c).subdir c!"src").output = vdir cwd dirs.output c ++ [c!"src"] := by
    rw [(locate_subdir cwd _ plain_src).1, hv]
  have hsrci : locate cwd ((Gen.variantDirs dirs c).subdir c!"src").input = vdir cwd dirs.input c ++ [c!"src"] := by
    rw [(locate_subdir cwd _ plain_src).2, (locate_vdir cwd dirs c).2]
  unfold Gen.writeOps filesOf
  generalize hV : (Gen.variantDirs dirs c) = V at hsrc hsrci hv
  simp only
  generalize hS : V.subdir c!"src" = S at hsrc hsrci
  unfold CppGen.generate CppGen.generateCommon
  have e1 : (CppGen.copyPrelude S).map (Op.resolve cwd) =
      [LOp.write (vdir cwd dirs.output c ++ [c!"src", c!"rtcg", c!"rtcg.cpp"]) (.prelude c!"rtcg.cpp"),
       LOp.write (vdir cwd dirs.output c ++ [c!"src", c!"rtcg", c!"rtcg.h"]) (.prelude c!"rtcg.h")] := by
    have j1 : joinPath [c!"rtcg", c!"rtcg.cpp"] = c!"rtcg/rtcg.cpp" := by decide
    have j2 : joinPath [c!"rtcg", c!"rtcg.h"] = c!"rtcg/rtcg.h" := by decide
    simp only [CppGen.copyPrelude, List.map_cons, List.map_nil, Op.resolve, j1, j2, DirSet.outputPath]
    rw [locate_join_rel cwd _ c!"rtcg/rtcg.cpp" [c!"rtcg", c!"rtcg.cpp"] (by decide) (by decide) (by decide),
      locate_join_rel cwd _ c!"rtcg/rtcg.h" [c!"rtcg", c!"rtcg.h"] (by decide) (by decide) (by decide), hsrc]
    simp
  have e2 : ∀ b : Bool, ((if b then
      [Op.copy (joinPath [(S.subdir c!"convert").input, c!"convert.cpp"]) (joinPath [(S.subdir c!"convert").output, c!"convert.cpp"])]
      else []).map (Op.resolve cwd)) = if b then
    [LOp.copy (locate cwd dirs.input ++ conversionFile c) (locate cwd dirs.output ++ conversionFile c)] else [] := by
    intro b
    cases b with
    | false => rfl
    | true =>
      simp only [if_true, List.map_cons, List.map_nil, Op.resolve]
      rw [locate_join1 cwd _ (by decide : Plain c!"convert.cpp"), locate_join1 cwd _ (by decide : Plain c!"convert.cpp"),
        (locate_subdir cwd S (by decide : Plain c!"convert")).1, (locate_subdir cwd S (by decide : Plain c!"convert")).2, hsrc, hsrci]
      simp [vdir, conversionFile]
  have e3 : locate cwd (joinPath [S.output, c!"convert", c!"convert.h"]) =
      vdir cwd dirs.output c ++ [c!"src", c!"convert", c!"convert.h"] := by
    rw [locate_join2 cwd _ (by decide : Plain c!"convert") (by decide : Plain c!"convert.h"), hsrc]; simp
  have e4 : ∀ ctx, (CppGen.generateTests S c.variant ctx suite).map (Op.resolve cwd) =
      (suite.tests.map (fun nt => (([c!"src", nt.1, c!"src", c!"main.cpp"],
        Content.mainCpp c.variant nt.1 nt.2 (TransitionContext.make nt.2) ctx) : List Str × Content))).map
        (fun rc => LOp.write (vdir cwd dirs.output c ++ rc.1) rc.2) := by
    intro ctx
    unfold CppGen.generateTests
    rw [List.map_map, List.map_map]
    refine List.map_congr_left fun nt hnt => ?_
    simp only [Function.comp, Op.resolve]
    rw [locate_join2 cwd _ plain_src (by decide : Plain c!"main.cpp"), (locate_subdir cwd S (hn nt hnt)).1, hsrc]
    simp
  have e5 : ∀ pkg, (CatkinGen.generate S pkg suite).map (Op.resolve cwd) =
      (suite.tests.flatMap (fun nt =>
        ([([c!"src", nt.1, c!"package.xml"], .packageXml (Catkin.forTest pkg nt.1)),
         ([c!"src", nt.1, c!"CMakeLists.txt"], .cmake (Catkin.forTest pkg nt.1))] : List (List Str × Content)))).map
        (fun rc => LOp.write (vdir cwd dirs.output c ++ rc.1) rc.2) := by
    intro pkg
    unfold CatkinGen.generate
    rw [map_flatMap_congr _ _ _ _ (fun a ha => rfl), map_flatMap_congr _ _ _ _ (fun a ha => rfl)]
    refine List.flatMap_congr fun nt hnt => ?_
    simp only [List.map_cons, List.map_nil, Op.resolve]
    have := joinPath_skip (S.subdir nt.1).output c!"CMakeLists.txt"
    rw [this, locate_join1 cwd _ (by decide : Plain c!"package.xml"), locate_join1 cwd _ (by decide : Plain c!"CMakeLists.txt"),
      (locate_subdir cwd S (hn nt hnt)).1, hsrc]
    simp
  have e6 : ∀ ctx, (MakefileGen.generate V ctx suite).map (Op.resolve cwd) =
      [LOp.write (vdir cwd dirs.output c ++ [c!"Makefile"]) (.makefile suite.tests.keys ctx)] := by
    intro ctx
    simp only [MakefileGen.generate, List.map_cons, List.map_nil, Op.resolve]
    rw [locate_join1 cwd _ (by decide : Plain c!"Makefile"), hv]
  simp only [List.map_append, e1, e2, e4, List.map_cons, List.map_nil, copyOps]
  have e6' : (if c.makefile then MakefileGen.generate V (c.process suite.types) suite else []).map (Op.resolve cwd) =
      ((if c.makefile then [([c!"Makefile"], Content.makefile suite.tests.keys (c.process suite.types))] else []) :
        List (List Str × Content)).map (fun rc => LOp.write (vdir cwd dirs.output c ++ rc.1) rc.2) := by
    cases c.makefile with
    | false => rfl
    | true => exact e6 _
  rw [e6']
  have e3' : Op.resolve cwd (.write (joinPath [S.output, c!"convert", c!"convert.h"]) (.convertH c.variant (c.process suite.types))) =
      LOp.write (vdir cwd dirs.output c ++ [c!"src", c!"convert", c!"convert.h"]) (.convertH c.variant (c.process suite.types)) := by
    simp only [Op.resolve, e3]
  rw [e3']
  have := perm_swap4 (α := LOp)
    [LOp.write (vdir cwd dirs.output c ++ [c!"src", c!"rtcg", c!"rtcg.cpp"]) (.prelude c!"rtcg.cpp"),
       LOp.write (vdir cwd dirs.output c ++ [c!"src", c!"rtcg", c!"rtcg.h"]) (.prelude c!"rtcg.h")]
    (if (c.process suite.types).hasConversion then
    [LOp.copy (locate cwd dirs.input ++ conversionFile c) (locate cwd dirs.output ++ conversionFile c)] else [])
    [LOp.write (vdir cwd dirs.output c ++ [c!"src", c!"convert", c!"convert.h"]) (.convertH c.variant (c.process suite.types))]
  cases c.catkin with
  | none => exact this _ _ _
  | some pkg => simp only [e5]; exact this _ _ _

end Rtcg
