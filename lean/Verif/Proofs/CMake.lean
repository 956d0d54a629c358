import Verif.Model.Templates
import Verif.Spec.CMake

/-
Reading CMakeLists.txt.
-/

namespace Rtcg.CMakeProofs

open Rtcg Rtcg.Spec.CMake Rtcg.Templates

theorem feed_append (done : List Command) (p : Place) (s t : Str) :
    feed done p (s ++ t) = (feed done p s).bind fun q => feed q.1 q.2 t := by
  induction s generalizing done p with
  | nil => rfl
  | cons c s ih =>
    rw [List.cons_append, feed, feed]
    cases step done p c with
    | none => rfl
    | some q => exact ih q.1 q.2

theorem nameChar_plain {c : Char} (h : isNameChar c = true) : isBlank c = false ∧ c ≠ ')' ∧ c ≠ '"' ∧ special.contains c = false ∧
    c ≠ '$' ∧ c ≠ '}' ∧ c ≠ '{' ∧ c ≠ ';' := by
  have key : ∀ d : Char, d ∈ special ++ ['$', '}', '{'] → isNameChar d = false := by decide +kernel
  have hn : c ∉ special ++ ['$', '}', '{'] := fun hc => by rw [key c hc] at h; cases h
  have ne : ∀ d, d ∈ special ++ ['$', '}', '{'] → c ≠ d := fun d hd e => hn (e ▸ hd)
  refine ⟨?_, ne _ (by decide), ne _ (by decide), ?_, ne _ (by decide), ne _ (by decide), ne _ (by decide), ne _ (by decide)⟩
  · simp [isBlank, ne ' ' (by decide), ne '\t' (by decide), ne '\n' (by decide)]
  · rw [← Bool.not_eq_true, List.contains_iff_mem]
    exact fun h => hn (List.mem_append_left _ h)

theorem name_spec {s : Str} (h : isName s = true) : s ≠ [] ∧ ∀ c ∈ s, isNameChar c = true := by
  simp only [isName, Bool.and_eq_true, Bool.not_eq_true', List.isEmpty_eq_false_iff, List.all_eq_true] at h
  exact h

theorem feed_more {done : List Command} {n : Str} {as : List Arg} {t s : Str} (h : ∀ c ∈ s, isNameChar c = true) :
    feed done (.unquoted n as t) s = some (done, .unquoted n as (t ++ s)) := by
  induction s generalizing t with
  | nil => rw [feed, List.append_nil]
  | cons c s ih =>
    obtain ⟨h1, h2, h3, h4, -⟩ := nameChar_plain (h c (by simp))
    rw [feed]
    have : step done (.unquoted n as t) c = some (done, .unquoted n as (t ++ [c])) := by
      simp only [step, h1, h4, if_neg h2, Bool.false_eq_true, if_false]
    rw [this, Option.bind_some, ih fun d hd => h d (by simp [hd])]
    simp

theorem feed_name {done : List Command} {n : Str} {as : List Arg} {s : Str} (h : isName s = true) :
    feed done (.args n as) s = some (done, .unquoted n as s) := by
  obtain ⟨hne, hs⟩ := name_spec h
  cases s with
  | nil => exact absurd rfl hne
  | cons c s =>
    obtain ⟨h1, h2, h3, h4, -⟩ := nameChar_plain (hs c (by simp))
    rw [feed]
    have : step done (.args n as) c = some (done, .unquoted n as [c]) := by
      simp only [step, h1, h4, if_neg h2, if_neg h3, Bool.false_eq_true, if_false]
    rw [this, Option.bind_some, feed_more fun d hd => hs d (by simp [hd])]
    simp

/-- The dependencies, in an unquoted argument. -/
theorem feed_depends {done : List Command} {n : Str} {as : List Arg} {t : Str} {ds : List Str} (h : ∀ d ∈ ds, isName d = true) :
    ∃ u us, feed done (.unquoted n as t) (cmakeDepends ds) = some (done, .unquoted n (as ++ us) u) ∧
      us ++ [⟨false, u⟩] = (t :: ds).map (⟨false, ·⟩) := by
  induction ds generalizing as t with
  | nil => exact ⟨t, [], by simp [cmakeDepends, feed], rfl⟩
  | cons d ds ih =>
    obtain ⟨u, us, h1, h2⟩ := ih (as := as ++ [⟨false, t⟩]) (t := d) fun x hx => h x (by simp [hx])
    refine ⟨u, ⟨false, t⟩ :: us, ?_, by rw [List.cons_append, h2]; rfl⟩
    have e : cmakeDepends (d :: ds) = c!"\n    " ++ (d ++ cmakeDepends ds) := by simp [cmakeDepends]
    rw [e, feed_append]
    have : feed done (.unquoted n as t) c!"\n    " = some (done, .args n (as ++ [⟨false, t⟩])) := rfl
    rw [this, Option.bind_some, feed_append, feed_name (h d (by simp)), Option.bind_some, h1]
    simp

/-- An argument that is not quoted. -/
def bare (s : Str) : Arg := ⟨false, s⟩

/-- The commands of CMakeLists.txt. -/
def commands (p : Catkin.Package) : List Command :=
  [⟨c!"cmake_minimum_required", [bare c!"VERSION", bare c!"3.0.2"]⟩, ⟨c!"project", [bare p.name]⟩,
   ⟨c!"add_compile_options", [bare c!"-std=c++11"]⟩,
   ⟨c!"find_package", [bare c!"catkin", bare c!"REQUIRED", bare c!"COMPONENTS", bare c!"roscpp", bare c!"std_msgs"] ++ p.depends.map bare⟩,
   ⟨c!"catkin_package", [bare c!"CATKIN_DEPENDS", bare c!"roscpp", bare c!"std_msgs"] ++ p.depends.map bare⟩,
   ⟨c!"include_directories", [bare c!"include", bare c!"${catkin_INCLUDE_DIRS}", bare c!"../convert/", bare c!"../rtcg/"]⟩,
   ⟨c!"add_library", [bare c!"convert", bare c!"../convert/convert.cpp"]⟩, ⟨c!"add_library", [bare c!"rtcg", bare c!"../rtcg/rtcg.cpp"]⟩,
   ⟨c!"add_executable", [bare c!"${PROJECT_NAME}_node", bare c!"src/main.cpp", bare c!"../convert/convert.cpp", bare c!"../rtcg/rtcg.cpp"]⟩,
   ⟨c!"set_target_properties", [bare c!"${PROJECT_NAME}_node", bare c!"PROPERTIES", bare c!"OUTPUT_NAME", bare c!"node", bare c!"PREFIX", ⟨true, []⟩]⟩,
   ⟨c!"add_dependencies", [bare c!"${PROJECT_NAME}_node", bare c!"${${PROJECT_NAME}_EXPORTED_TARGETS}", bare c!"${catkin_EXPORTED_TARGETS}",
     bare c!"convert", bare c!"rtcg"]⟩,
   ⟨c!"target_link_libraries", [bare c!"${PROJECT_NAME}_node", bare c!"${catkin_LIBRARIES}", bare c!"convert", bare c!"rtcg"]⟩]

/-- A literal text read from the start: what it adds does not depend on what came before. -/
theorem feed_done (done : List Command) (p q : Place) (s : Str) (new : List Command) (h : feed [] p s = some (new, q)) :
    feed done p s = some (done ++ new, q) := by
  have one : ∀ (p : Place) (c : Char) d, step d p c = (step [] p c).map fun x => (d ++ x.1, x.2) := by
    intro p c d
    cases p <;> simp only [step] <;> repeat' split
    all_goals simp
  have gen : ∀ (s : Str) (d : List Command) (p : Place), feed d p s = (feed [] p s).map fun x => (d ++ x.1, x.2) := by
    intro s
    induction s with
    | nil => intro d p; simp [feed]
    | cons c s ih =>
      intro d p
      rw [feed, feed, one p c d]
      cases step [] p c with
      | none => rfl
      | some x =>
        simp only [Option.map_some, Option.bind_some]
        rw [ih (d ++ x.1), ih x.1]
        cases feed [] x.2 s with
        | none => rfl
        | some y => simp
  rw [gen s done p, h]
  rfl

theorem feed_step {done new : List Command} {p q : Place} {s : Str} (t : Str) (h : feed [] p s = some (new, q)) :
    feed done p (s ++ t) = feed (done ++ new) q t := by
  rw [feed_append, feed_done done p q s new h]; rfl

theorem feed_close {done : List Command} {n : Str} {as : List Arg} {t : Str} (s : Str) :
    feed done (.unquoted n as t) (c!")" ++ s) = feed (done ++ [⟨n, as ++ [bare t]⟩]) (.between false) s := feed_step s rfl

theorem feed_close_line {done : List Command} {n : Str} {as : List Arg} {t : Str} (s : Str) :
    feed done (.unquoted n as t) (c!"\n)" ++ s) = feed (done ++ [⟨n, as ++ [bare t]⟩]) (.between false) s := feed_step s rfl

/-- The commands that are the same in each file. -/
def lastCommands : List Command := (commands Catkin.Package.zero).drop 5

theorem feed_last :
    feed [] (.between false)
      (c!"\n\ninclude_directories(\n    include\n    ${catkin_INCLUDE_DIRS}\n    ../convert/\n    ../rtcg/\n)\n\n" ++
  c!"add_library(convert\n    ../convert/convert.cpp\n)\n\nadd_library(rtcg\n    ../rtcg/rtcg.cpp\n)\n\n" ++
  c!"add_executable(${PROJECT_NAME}_node\n    src/main.cpp\n    ../convert/convert.cpp\n    ../rtcg/rtcg.cpp\n)\n\n" ++
  c!"set_target_properties(${PROJECT_NAME}_node PROPERTIES OUTPUT_NAME node PREFIX \"\")\n\n" ++
  c!"add_dependencies(${PROJECT_NAME}_node\n    ${${PROJECT_NAME}_EXPORTED_TARGETS}\n    ${catkin_EXPORTED_TARGETS}\n    convert\n    rtcg\n)\n\n" ++
  c!"target_link_libraries(${PROJECT_NAME}_node\n    ${catkin_LIBRARIES}\n    convert\n    rtcg\n)") =
      some (lastCommands, .between false) := by
  decide +kernel

theorem read_cmake {p : Catkin.Package} (hn : isName p.name = true) (hd : ∀ d ∈ p.depends, isName d = true) :
    Spec.CMake.read (cmakeText p) = some (commands p) := by
  have key : feed [] (.between true) (cmakeText p) = some (commands p, .between false) := by
    have h1 : feed [] (.between true) c!"cmake_minimum_required(VERSION 3.0.2)\nproject(" =
        some ([⟨c!"cmake_minimum_required", [bare c!"VERSION", bare c!"3.0.2"]⟩], .args c!"project" []) := by decide +kernel
    have h2 : feed [] (.between false) c!"\n\nadd_compile_options(-std=c++11)\n\nfind_package(catkin REQUIRED COMPONENTS\n    roscpp\n    std_msgs" =
        some ([⟨c!"add_compile_options", [bare c!"-std=c++11"]⟩], .unquoted c!"find_package"
          [bare c!"catkin", bare c!"REQUIRED", bare c!"COMPONENTS", bare c!"roscpp"] c!"std_msgs") := by decide +kernel
    have h3 : feed [] (.between false) c!"\n\ncatkin_package(CATKIN_DEPENDS\n    roscpp\n    std_msgs" =
        some ([], .unquoted c!"catkin_package" [bare c!"CATKIN_DEPENDS", bare c!"roscpp"] c!"std_msgs") := by decide +kernel
    have e : cmakeText p = c!"cmake_minimum_required(VERSION 3.0.2)\nproject(" ++ (p.name ++ (c!")" ++
        (c!"\n\nadd_compile_options(-std=c++11)\n\nfind_package(catkin REQUIRED COMPONENTS\n    roscpp\n    std_msgs" ++
        (cmakeDepends p.depends ++ (c!"\n)" ++ (c!"\n\ncatkin_package(CATKIN_DEPENDS\n    roscpp\n    std_msgs" ++
        (cmakeDepends p.depends ++ (c!"\n)" ++ 
      (c!"\n\ninclude_directories(\n    include\n    ${catkin_INCLUDE_DIRS}\n    ../convert/\n    ../rtcg/\n)\n\n" ++
  c!"add_library(convert\n    ../convert/convert.cpp\n)\n\nadd_library(rtcg\n    ../rtcg/rtcg.cpp\n)\n\n" ++
  c!"add_executable(${PROJECT_NAME}_node\n    src/main.cpp\n    ../convert/convert.cpp\n    ../rtcg/rtcg.cpp\n)\n\n" ++
  c!"set_target_properties(${PROJECT_NAME}_node PROPERTIES OUTPUT_NAME node PREFIX \"\")\n\n" ++
  c!"add_dependencies(${PROJECT_NAME}_node\n    ${${PROJECT_NAME}_EXPORTED_TARGETS}\n    ${catkin_EXPORTED_TARGETS}\n    convert\n    rtcg\n)\n\n" ++
  c!"target_link_libraries(${PROJECT_NAME}_node\n    ${catkin_LIBRARIES}\n    convert\n    rtcg\n)"))))))))) := by
      unfold cmakeText
      simp only [List.append_assoc]
    rw [e, feed_step _ h1, feed_append, feed_name hn, Option.bind_some, feed_close, feed_step _ h2, feed_append]
    obtain ⟨u, us, g1, g2⟩ := feed_depends (done := [] ++ [⟨c!"cmake_minimum_required", [bare c!"VERSION", bare c!"3.0.2"]⟩] ++
      [⟨c!"project", [] ++ [bare p.name]⟩] ++ [⟨c!"add_compile_options", [bare c!"-std=c++11"]⟩]) (n := c!"find_package")
      (as := [bare c!"catkin", bare c!"REQUIRED", bare c!"COMPONENTS", bare c!"roscpp"]) (t := c!"std_msgs") hd
    rw [g1, Option.bind_some]
    simp only
    rw [feed_close_line, feed_step _ h3, feed_append]
    obtain ⟨u', us', g1', g2'⟩ := feed_depends (done := [] ++ [⟨c!"cmake_minimum_required", [bare c!"VERSION", bare c!"3.0.2"]⟩] ++
      [⟨c!"project", [] ++ [bare p.name]⟩] ++ [⟨c!"add_compile_options", [bare c!"-std=c++11"]⟩] ++ [⟨c!"find_package",
      [bare c!"catkin", bare c!"REQUIRED", bare c!"COMPONENTS", bare c!"roscpp"] ++ us ++ [bare u]⟩] ++ []) (n := c!"catkin_package")
      (as := [bare c!"CATKIN_DEPENDS", bare c!"roscpp"]) (t := c!"std_msgs") hd
    rw [g1', Option.bind_some]
    simp only
    rw [feed_close_line, feed_done _ _ _ _ _ feed_last]
    rw [List.append_assoc _ us, List.append_assoc _ us', show us ++ [bare u] = _ from g2, show us' ++ [bare u'] = _ from g2']
    rfl
  unfold Spec.CMake.read
  rw [key]

/-! ### what the commands say -/

theorem expand_name {vars : Vars} {outer : List Str} {cur s t : Str} (h : ∀ c ∈ s, isNameChar c = true) :
    expandFrom vars outer cur (s ++ t) = expandFrom vars outer (cur ++ s) t := by
  induction s generalizing cur with
  | nil => simp
  | cons c s ih =>
    obtain ⟨-, -, -, -, h1, h2, h3, -⟩ := nameChar_plain (h c (by simp))
    rw [List.cons_append, expandFrom.eq_def]
    simp only [if_neg h1, if_neg h2, if_neg h3]
    rw [ih fun d hd => h d (by simp [hd])]
    simp

theorem elements_name {s : Str} (h : isName s = true) : elements s = [s] := by
  obtain ⟨hne, hs⟩ := name_spec h
  unfold elements
  rw [List.splitOnP_eq_single]
  · simp [hne]
  · intro c hc
    have := (nameChar_plain (hs c hc)).2.2.2.2.2.2.2
    simp [this]

theorem values_name {vars : Vars} {s : Str} (h : isName s = true) : (bare s).values vars = some [s] := by
  have := expand_name (vars := vars) (outer := []) (cur := []) (t := []) (name_spec h).2
  rw [List.append_nil, List.nil_append] at this
  unfold Arg.values bare
  simp only
  rw [this, expandFrom]
  simp [elements_name h]

theorem values_names {vars : Vars} {l : List Str} (h : ∀ s ∈ l, isName s = true) : values vars (l.map bare) = some l := by
  induction l with
  | nil => rfl
  | cons s l ih =>
    rw [List.map_cons, values, values_name (h s (by simp)), ih fun d hd => h d (by simp [hd])]
    rfl

theorem values_append {vars : Vars} {as bs : List Arg} {l r : List Str} (ha : values vars as = some l) (hb : values vars bs = some r) :
    values vars (as ++ bs) = some (l ++ r) := by
  induction as generalizing l with
  | nil => cases ha; exact hb
  | cons a as ih =>
    rw [values] at ha
    rw [List.cons_append, values]
    cases hv : a.values vars with
    | none => rw [hv] at ha; cases ha
    | some v =>
      rw [hv] at ha
      cases hw : values vars as with
      | none => rw [hw] at ha; cases ha
      | some w =>
        rw [hw] at ha
        cases ha
        rw [ih hw]
        simp

theorem values_cons {vars : Vars} {a : Arg} {bs : List Arg} {l r : List Str} (ha : a.values vars = some l) (hb : values vars bs = some r) :
    values vars (a :: bs) = some (l ++ r) := by
  rw [values, ha, hb]; rfl

/-- The variables after `project`. -/
def withProject (vars : Vars) (n : Str) : Vars := fun x => if x = c!"PROJECT_NAME" then n else vars x

theorem node_name {n : Str} (h : isName n = true) : isName (n ++ c!"_node") = true := by
  obtain ⟨h1, h2⟩ := name_spec h
  simp only [isName, List.all_append, Bool.and_eq_true, Bool.not_eq_true', List.isEmpty_eq_false_iff, List.all_eq_true]
  exact ⟨by simp [h1], h2, by decide⟩

theorem values_node {vars : Vars} {n : Str} (h : isName n = true) :
    (bare c!"${PROJECT_NAME}_node").values (withProject vars n) = some [n ++ c!"_node"] := by
  have : expandFrom (withProject vars n) [] [] c!"${PROJECT_NAME}_node" = some (n ++ c!"_node") := by
    have e : expandFrom (withProject vars n) [] [] c!"${PROJECT_NAME}_node" = expandFrom (withProject vars n) [] n c!"_node" := rfl
    have := expand_name (vars := withProject vars n) (outer := []) (cur := n) (s := c!"_node") (t := []) (by decide)
    rw [e, ← List.append_nil c!"_node", this]
    simp [expandFrom]
  unfold Arg.values bare
  simp only
  rw [this]
  simp [elements_name (node_name h)]

theorem values_ref {vars : Vars} {n v : Str} (hv : ∀ c ∈ v, isNameChar c = true) (hne : v ≠ c!"PROJECT_NAME") :
    (bare (c!"${" ++ v ++ c!"}")).values (withProject vars n) = some (elements (vars v)) := by
  have : expandFrom (withProject vars n) [] [] (c!"${" ++ v ++ c!"}") = some (vars v) := by
    have e : expandFrom (withProject vars n) [] [] (c!"${" ++ v ++ c!"}") = expandFrom (withProject vars n) [[]] [] (v ++ c!"}") := by
      simp [expandFrom]
    rw [e, expand_name hv]
    simp [expandFrom, withProject, hne]
  unfold Arg.values bare
  simp only
  rw [this]
  simp

theorem values_exported {vars : Vars} {n : Str} (h : isName n = true) :
    (bare c!"${${PROJECT_NAME}_EXPORTED_TARGETS}").values (withProject vars n) = some (elements (vars (n ++ c!"_EXPORTED_TARGETS"))) := by
  have : expandFrom (withProject vars n) [] [] c!"${${PROJECT_NAME}_EXPORTED_TARGETS}" = some (vars (n ++ c!"_EXPORTED_TARGETS")) := by
    have e : expandFrom (withProject vars n) [] [] c!"${${PROJECT_NAME}_EXPORTED_TARGETS}" =
        expandFrom (withProject vars n) [[]] n (c!"_EXPORTED_TARGETS" ++ c!"}") := rfl
    have hne : n ++ c!"_EXPORTED_TARGETS" ≠ c!"PROJECT_NAME" := by
      intro e
      have := congrArg (fun l => l.getLast?) e
      simp at this
    rw [e, expand_name (by decide)]
    simp [expandFrom, withProject, hne]
  unfold Arg.values bare
  simp only
  rw [this]
  simp

theorem exec_then {vars vars' : Vars} {b b' : Build} {name : Str} {args : List Arg} {vs : List Str} (cs : List Command)
    (h : values vars args = some vs) (ha : act vars b name vs = some (vars', b')) :
    execAll vars b (⟨name, args⟩ :: cs) = execAll vars' b' cs := by
  rw [execAll, exec, h, Option.bind_some, ha]; rfl

theorem act_minimum {vars : Vars} {b : Build} {as : List Str} (h : as.length = 1) :
    act vars b c!"cmake_minimum_required" (c!"VERSION" :: as) = some (vars, b) := by
  rw [act, if_pos rfl, if_pos ⟨rfl, h⟩]

theorem act_project {vars : Vars} {b : Build} {a : Str} (h : isName a = true) :
    act vars b c!"project" [a] = some (withProject vars a, { b with project := a }) := by
  rw [act, if_neg (by decide), if_pos rfl, if_pos ⟨h, rfl⟩]; rfl

theorem act_options {vars : Vars} {b : Build} {a : Str} {as : List Str} :
    act vars b c!"add_compile_options" (a :: as) = some (vars, { b with options := b.options ++ a :: as }) := by
  rw [act, if_neg (by decide), if_neg (by decide), if_pos rfl]

theorem act_find {vars : Vars} {b : Build} {as : List Str} (ht : as.take 2 = [c!"REQUIRED", c!"COMPONENTS"])
    (h : ∀ d ∈ as.drop 2, isPackage d = true) :
    act vars b c!"find_package" (c!"catkin" :: as) = some (vars, { b with needs := b.needs ++ as.drop 2 }) := by
  rw [act, if_neg (by decide), if_neg (by decide), if_neg (by decide), if_pos rfl, if_pos ⟨rfl, ht, List.all_eq_true.2 h⟩]

theorem act_package {vars : Vars} {b : Build} {as : List Str} (h : ∀ d ∈ as, isPackage d = true) :
    act vars b c!"catkin_package" (c!"CATKIN_DEPENDS" :: as) = some (vars, { b with exports := b.exports ++ as }) := by
  rw [act, if_neg (by decide), if_neg (by decide), if_neg (by decide), if_neg (by decide), if_pos rfl,
    if_pos ⟨rfl, List.all_eq_true.2 h⟩]

theorem act_include {vars : Vars} {b : Build} {a : Str} {as : List Str} :
    act vars b c!"include_directories" (a :: as) = some (vars, { b with includes := b.includes ++ a :: as }) := by
  rw [act, if_neg (by decide), if_neg (by decide), if_neg (by decide), if_neg (by decide), if_neg (by decide), if_pos rfl]

theorem act_target {vars : Vars} {b : Build} {n a : Str} {as : List Str} (ha : isName a = true)
    (h : n ∉ [c!"cmake_minimum_required", c!"project", c!"add_compile_options", c!"find_package", c!"catkin_package",
      c!"include_directories"]) :
    act vars b n (a :: as) = 
    if n = c!"add_library" then some (vars, { b with libraries := b.libraries ++ [(a, as)] })
    else if n = c!"add_executable" then some (vars, { b with programs := b.programs ++ [(a, as)] })
    else if n = c!"set_target_properties" then
      if as.head? = some c!"PROPERTIES" then some (vars, { b with properties := b.properties ++ [(a, as.tail)] }) else Option.none
    else if n = c!"add_dependencies" then some (vars, { b with before := b.before ++ [(a, as)] })
    else if n = c!"target_link_libraries" then some (vars, { b with links := b.links ++ [(a, as)] })
    else Option.none := by
  simp only [List.mem_cons, List.not_mem_nil, or_false, not_or] at h
  obtain ⟨h1, h2, h3, h4, h5, h6⟩ := h
  rw [act, if_neg h1, if_neg h2, if_neg h3, if_neg h4, if_neg h5, if_neg h6, if_neg (fun h => h ha)]

theorem act_library {vars : Vars} {b : Build} {a : Str} {as : List Str} (ha : isName a = true) :
    act vars b c!"add_library" (a :: as) = some (vars, { b with libraries := b.libraries ++ [(a, as)] }) := by
  rw [act_target ha (by decide), if_pos rfl]

theorem act_program {vars : Vars} {b : Build} {a : Str} {as : List Str} (ha : isName a = true) :
    act vars b c!"add_executable" (a :: as) = some (vars, { b with programs := b.programs ++ [(a, as)] }) := by
  rw [act_target ha (by decide), if_neg (by decide), if_pos rfl]

theorem act_properties {vars : Vars} {b : Build} {a : Str} {as : List Str} (ha : isName a = true) :
    act vars b c!"set_target_properties" (a :: c!"PROPERTIES" :: as) = some (vars, { b with properties := b.properties ++ [(a, as)] }) := by
  rw [act_target ha (by decide), if_neg (by decide), if_neg (by decide), if_pos rfl]; simp

theorem act_before {vars : Vars} {b : Build} {a : Str} {as : List Str} (ha : isName a = true) :
    act vars b c!"add_dependencies" (a :: as) = some (vars, { b with before := b.before ++ [(a, as)] }) := by
  rw [act_target ha (by decide), if_neg (by decide), if_neg (by decide), if_neg (by decide), if_pos rfl]

theorem act_links {vars : Vars} {b : Build} {a : Str} {as : List Str} (ha : isName a = true) :
    act vars b c!"target_link_libraries" (a :: as) = some (vars, { b with links := b.links ++ [(a, as)] }) := by
  rw [act_target ha (by decide), if_neg (by decide), if_neg (by decide), if_neg (by decide), if_neg (by decide), if_pos rfl]

theorem run_commands {vars : Vars} {p : Catkin.Package} (hn : isName p.name = true) (hd : ∀ d ∈ p.depends, isPackage d = true) :
    execAll vars Build.none (commands p) = some (expected vars p.name p.depends) := by
  have hdn : ∀ d ∈ p.depends, isName d = true := fun d h => by
    have := hd d h
    simp only [isPackage, Bool.and_eq_true] at this
    exact this.1
  have hall : p.depends.all isPackage = true := List.all_eq_true.2 hd
  have names := fun vars => values_names (vars := vars) hdn
  unfold commands
  have v1 : values vars [bare c!"VERSION", bare c!"3.0.2"] = some [c!"VERSION", c!"3.0.2"] := rfl
  have v2 : values vars [bare p.name] = some [p.name] := values_names (l := [p.name]) (by simpa using hn)
  have v3 : values (withProject vars p.name) [bare c!"-std=c++11"] = some [c!"-std=c++11"] := rfl
  have v4 : values (withProject vars p.name) ([bare c!"catkin", bare c!"REQUIRED", bare c!"COMPONENTS", bare c!"roscpp", bare c!"std_msgs"] ++ p.depends.map bare) =
      some ([c!"catkin", c!"REQUIRED", c!"COMPONENTS", c!"roscpp", c!"std_msgs"] ++ p.depends) := values_append rfl (names _)
  have v5 : values (withProject vars p.name) ([bare c!"CATKIN_DEPENDS", bare c!"roscpp", bare c!"std_msgs"] ++ p.depends.map bare) =
      some ([c!"CATKIN_DEPENDS", c!"roscpp", c!"std_msgs"] ++ p.depends) := values_append rfl (names _)
  have v6 : values (withProject vars p.name) [bare c!"include", bare c!"${catkin_INCLUDE_DIRS}", bare c!"../convert/", bare c!"../rtcg/"] =
      some (c!"include" :: (elements (vars c!"catkin_INCLUDE_DIRS") ++ [c!"../convert/", c!"../rtcg/"])) :=
    values_cons (l := [c!"include"]) rfl (values_cons (values_ref (v := c!"catkin_INCLUDE_DIRS") (by decide) (by decide)) rfl)
  have v7 : values (withProject vars p.name) [bare c!"convert", bare c!"../convert/convert.cpp"] = some [c!"convert", c!"../convert/convert.cpp"] := rfl
  have v8 : values (withProject vars p.name) [bare c!"rtcg", bare c!"../rtcg/rtcg.cpp"] = some [c!"rtcg", c!"../rtcg/rtcg.cpp"] := rfl
  have v9 : values (withProject vars p.name) [bare c!"${PROJECT_NAME}_node", bare c!"src/main.cpp", bare c!"../convert/convert.cpp", bare c!"../rtcg/rtcg.cpp"] =
      some ((p.name ++ c!"_node") :: [c!"src/main.cpp", c!"../convert/convert.cpp", c!"../rtcg/rtcg.cpp"]) :=
    values_cons (l := [p.name ++ c!"_node"]) (values_node hn) rfl
  have v10 : values (withProject vars p.name) [bare c!"${PROJECT_NAME}_node", bare c!"PROPERTIES", bare c!"OUTPUT_NAME", bare c!"node", bare c!"PREFIX", ⟨true, []⟩] =
      some ((p.name ++ c!"_node") :: [c!"PROPERTIES", c!"OUTPUT_NAME", c!"node", c!"PREFIX", []]) :=
    values_cons (l := [p.name ++ c!"_node"]) (values_node hn) rfl
  have v11 : values (withProject vars p.name) [bare c!"${PROJECT_NAME}_node", bare c!"${${PROJECT_NAME}_EXPORTED_TARGETS}", bare c!"${catkin_EXPORTED_TARGETS}",
     bare c!"convert", bare c!"rtcg"] = some ((p.name ++ c!"_node") :: (elements (vars (p.name ++ c!"_EXPORTED_TARGETS")) ++
       (elements (vars c!"catkin_EXPORTED_TARGETS") ++ [c!"convert", c!"rtcg"]))) :=
    values_cons (l := [p.name ++ c!"_node"]) (values_node hn) (values_cons (values_exported hn)
      (values_cons (values_ref (v := c!"catkin_EXPORTED_TARGETS") (by decide) (by decide)) rfl))
  have v12 : values (withProject vars p.name) [bare c!"${PROJECT_NAME}_node", bare c!"${catkin_LIBRARIES}", bare c!"convert", bare c!"rtcg"] =
      some ((p.name ++ c!"_node") :: (elements (vars c!"catkin_LIBRARIES") ++ [c!"convert", c!"rtcg"])) :=
    values_cons (l := [p.name ++ c!"_node"]) (values_node hn) (values_cons (values_ref (v := c!"catkin_LIBRARIES") (by decide) (by decide)) rfl)
  have hp : isPackage c!"roscpp" = true ∧ isPackage c!"std_msgs" = true := by decide
  rw [exec_then _ v1 (act_minimum rfl), exec_then _ v2 (act_project hn), exec_then _ v3 act_options,
    exec_then _ v4 (act_find rfl (by simpa [hp] using hd)), exec_then _ v5 (act_package (by simpa [hp] using hd)),
    exec_then _ v6 act_include, exec_then _ v7 (act_library (by decide)), exec_then _ v8 (act_library (by decide)),
    exec_then _ v9 (act_program (node_name hn)), exec_then _ v10 (act_properties (node_name hn)),
    exec_then _ v11 (act_before (node_name hn)), exec_then _ v12 (act_links (node_name hn))]
  simp [execAll, expected, Build.none]

theorem run_cmake {vars : Vars} {p : Catkin.Package} (hn : isName p.name = true) (hd : ∀ d ∈ p.depends, isPackage d = true) :
    Spec.CMake.run vars (cmakeText p) = some (expected vars p.name p.depends) := by
  have hdn : ∀ d ∈ p.depends, isName d = true := fun d h => by
    have := hd d h
    simp only [isPackage, Bool.and_eq_true] at this
    exact this.1
  rw [Spec.CMake.run, read_cmake hn hdn, Option.bind_some, run_commands hn hd]

end Rtcg.CMakeProofs
