import Verif.Model.Fs
import Verif.Model.Json

/-
What the templates under internal/gen/**/embed/templates declare, refer to and can fail on; and the whole text of the Makefile and of
CMakeLists.txt.

The templates themselves, executed by a model of text/template, are in Model/TextTemplate.lean, Model/TemplateFiles.lean and
Model/TemplateData.lean; the failures and texts written down here are proved to be theirs (Props/CppText.lean).  The meaning of the C++
is in Model/Harness.lean.  Template paths are relative to
internal/gen/cpp/embed/templates unless said otherwise.
-/

namespace Rtcg

namespace Templates

open Strmanip Cpp

/-! ### failures -/

/-- `cppType` of a channel's type: base/convert/convert_base.h.tmpl:54,67 and animate/main_body.cpp.tmpl:46.  text/template refuses to
dereference a nil pointer; indexing a map by a missing key gives the zero ChannelType, whose pointer is nil. -/
def typeOf (t : Option CppConfig.ChannelType) : Res Str :=
  match t.bind (·.base) with
  | some ty => .ok (stdType ty)
  | none => throwErr .template

/-- Executing convert.h.tmpl, base/convert/convert_base.h.tmpl:52-77 -/
def convertH (ctx : CppConfig.Context) : Res Unit :=
  if ctx.channelTypes.all (fun ct => (typeOf (some ct.2)).toBool) then .ok () else throwErr .template

/-- `(index $ts 0).Next` for every entry of InMerged, base/in_callback.cpp.tmpl:10-13, executed only if there are inputs
(base/stm.cpp.tmpl:114-122); and `index .Stm.States 0`, base/stm.cpp.tmpl:33; and, in the animate variant, the types of the outputs,
animate/main_body.cpp.tmpl:41-46.  (InitialState, stm.go:39-42, panics without states; text/template reports that as an error.) -/
def mainCpp (v : Variant) (m : Stm) (tc : TransitionContext) (ctx : CppConfig.Context) : Res Unit :=
  if m.states.length = 0 then throwErr .template
  else if tc.hasIn && tc.inMerged.any (fun sts => sts.2.length = 0) then throwErr .template
  else if v = Variant.animate && tc.out.any (fun a => !(typeOf (GoMap.get? ctx.channelTypes a.channel.name)).toBool) then
    throwErr .template
  else .ok ()

/-- Executing the template for a file, gen/templating/set.go:25-34 and gen/templating/templating.go:12-21; the other templates cannot fail on what they are given. -/
def execute : Content → Res Unit
  | .convertH _ ctx => convertH ctx
  | .mainCpp v _ m tc ctx => mainCpp v m tc ctx
  | _ => .ok ()

/-- One operation of a generation, with the execution of the template.  What a failed execution leaves in its file
is in `TextLayer.text`. (gen/templating/templating.go:12-21.) -/
def runOp (cwd : Loc) (fs : Fs) (op : Op) : Fs × Res Unit :=
  match Gen.runOp cwd fs op with
  | .error e => (fs, .error e)
  | .ok fs' =>
    match op with
    | .write _ c => (fs', execute c)
    | _ => (fs', .ok ())

/-- Operations in order, up to the first error: `Gen.run` with the execution of the templates. (gen/gen.go:134-171.) -/
def run (cwd : Loc) : Fs → List Op → Fs × Res Unit
  | fs, [] => (fs, .ok ())
  | fs, op :: ops =>
    match runOp cwd fs op with
    | (fs', .error e) => (fs', .error e)
    | (fs', .ok ()) => run cwd fs' ops

/-- One operation of a generation from a suite that may lack things.  A nil machine or state is dereferenced when the context of the
test is made (stm.go:45-55, from gen/cpp/cpp.go:131), before its file is opened; ranging over a nil verdict is refused by text/template
(base/state_entry.cpp.tmpl:10). -/
def runOpRead (missing : Str → Option Json.Missing) (cwd : Loc) (fs : Fs) (op : Op) : Fs × Res Unit :=
  match op with
  | .write _ (.mainCpp _ test _ _ _) =>
    match missing test with
    | some .machine => (fs, .error .panic)
    | some .verdict =>
      match Gen.runOp cwd fs op with
      | .error e => (fs, .error e)
      | .ok fs' => (fs', throwErr .template)
    | none => runOp cwd fs op
  | _ => runOp cwd fs op

/-- Operations in order, up to the first error: `run` for a suite that may lack things. (gen/gen.go:134-171.) -/
def runRead (missing : Str → Option Json.Missing) (cwd : Loc) : Fs → List Op → Fs × Res Unit
  | fs, [] => (fs, .ok ())
  | fs, op :: ops =>
    match runOpRead missing cwd fs op with
    | (fs', .error e) => (fs', .error e)
    | (fs', .ok ()) => runRead missing cwd fs' ops

/-- (*genAction).run after reading the suite, cmd/rtcg-gen/main.go:67-82, 116-132: `Gen.action` with the execution of the templates. -/
def action (cwd : Loc) (fs : Fs) (clean : Bool) (output : Str) (cfg : GenConfig) (suite : StmSuite) : Fs × Res Unit :=
  match Gen.maybeClean cwd fs clean (cleanPath output) with
  | (fs, .error e) => (fs, .error e)
  | (fs, .ok ()) => run cwd fs (Gen.ops cfg (cleanPath output) suite)

/-! ### names declared -/

/-- "topic_name", ros/main.cpp.tmpl:23 -/
def topicName (U : Unicode) (c : Channel) : Str := toLowerUnderscored U c.name

/-- "publisher_name", ros/main.cpp.tmpl:24 -/
def publisherName (U : Unicode) (c : Channel) : Str := topicName U c ++ c!"_pub"

/-- "subscriber_name", ros/main.cpp.tmpl:25 -/
def subscriberName (U : Unicode) (c : Channel) : Str := topicName U c ++ c!"_sub"

/-- "stm_fields", base/stm.cpp.tmpl:34 (none) and ros/main.cpp.tmpl:83-89 -/
def stmFields (U : Unicode) (v : Variant) (tc : TransitionContext) : List Str :=
  if v = Variant.ros then tc.in_.map (fun a => publisherName U a.channel ++ c!"_") else []

/-- The members declared in class StateMachine, base/stm.cpp.tmpl:9-43, in order -/
def classMembers (U : Unicode) (v : Variant) (m : Stm) : List Str :=
  let tc := TransitionContext.make m
  [c!"getVerdict", c!"timeoutCallback"] ++
  (if tc.firstStateHasIn then [c!"initialDelayCallback"] else []) ++
  (if tc.hasIn then [c!"inputAcceptedCallback"] else []) ++
  tc.out.map (fun a => callbackName a.channel.name) ++
  [c!"verdict_", c!"state_"] ++ stmFields U v tc ++
  m.states.map (fun s => stateEntry U s.id) ++
  [c!"stateName", c!"end"]

/-- The members it inherits, gen/cpp/embed/prelude/rtcg.h:64-71 -/
def inherited : List Str := [c!"getStatus", c!"status_"]

/-- The members of class Verdict and its own name, base/verdict.cpp.tmpl:7-18 -/
def verdictMembers (m : Stm) : List Str :=
  let tests := GoSet.values m.tests
  [c!"Verdict", c!"dump"] ++ tests ++ tests.map (· ++ c!"_")

/-- The macros and functions defined or declared in convert.h, base/convert/convert_base.h.tmpl:27-77, in map order -/
def convertNames (U : Unicode) (ctx : CppConfig.Context) : List Str :=
  let chans := ctx.channelTypes.keys
  chans.map (channelValueType U) ++ chans.map (channelMsgType U) ++ chans.map (convertFrom U) ++ chans.map (convertTo U)

/-- The local variables of `main` in the ros variant: base/entry.cpp.tmpl:2-15 and ros/main.cpp.tmpl:48-74 -/
def rosLocals (U : Unicode) (m : Stm) : List Str :=
  let tc := TransitionContext.make m
  [c!"argc", c!"argv", c!"nh"] ++ tc.in_.map (fun a => publisherName U a.channel) ++ [c!"stm"] ++
  (if tc.hasIn then [c!"input_accepted_sub"] else []) ++ tc.out.map (fun a => subscriberName U a.channel) ++
  [c!"timeout_timer"] ++ (if tc.firstStateHasIn then [c!"initial_delay_timer"] else []) ++ [c!"status"]

/-- The topics a ros test publishes to or subscribes to: ros/main.cpp.tmpl:53-64 -/
def rosTopics (U : Unicode) (m : Stm) : List Str :=
  let tc := TransitionContext.make m
  tc.in_.map (fun a => topicName U a.channel) ++ (if tc.hasIn then [c!"input_accepted"] else []) ++
    tc.out.map (fun a => topicName U a.channel)

/-! ### names used -/

/-- The entry functions called: base/stm.cpp.tmpl:52,110 (the initial state's), base/in_callback.cpp.tmpl:13 and
base/out_callback.cpp.tmpl:23 -/
def entriesCalled (U : Unicode) (m : Stm) : List Str :=
  let tc := TransitionContext.make m
  m.states.head?.toList.map (fun s => stateEntry U s.id) ++
  (if tc.hasIn then tc.inMerged.flatMap (fun sts => sts.2.head?.toList.map (fun t => stateEntry U t.next)) else []) ++
  tc.out.flatMap (fun a => a.states.flatMap (fun sts => sts.2.map (fun t => stateEntry U t.next)))

/-- The verdict setters called: base/state_entry.cpp.tmpl:10-12 -/
def settersCalled (m : Stm) : List Str := m.states.flatMap (fun s => s.verdict.keys)

/-- The states named in case labels: base/in_callback.cpp.tmpl:11 and base/out_callback.cpp.tmpl:13 -/
def caseLabels (U : Unicode) (m : Stm) : List Str :=
  let tc := TransitionContext.make m
  (if tc.hasIn then tc.inMerged.map (fun sts => stateEnum U sts.1) else []) ++
    tc.out.flatMap (fun a => a.states.map (fun sts => stateEnum U sts.1))

/-- The members of enum class State, base/state_meta.cpp.tmpl:7-12 -/
def stateMembers (U : Unicode) (m : Stm) : List Str := m.states.map (fun s => stateEnum U s.id)

/-- The names from convert.h used in main.cpp: base/stm.cpp.tmpl:29,126 and base/out_callback.cpp.tmpl:8 for outputs,
ros/main.cpp.tmpl:29 or animate/main.cpp.tmpl:14 for inputs sent, ros/main.cpp.tmpl:54 for publishers, animate/main_body.cpp.tmpl:49 for
typed outputs -/
def convertUsed (U : Unicode) (v : Variant) (m : Stm) : List Str :=
  let tc := TransitionContext.make m
  tc.out.flatMap (fun a => [channelMsgType U a.channel.name, convertFrom U a.channel.name] ++
    (if v = Variant.animate then [convertTo U a.channel.name] else [])) ++
  tc.in_.flatMap (fun a => [convertTo U a.channel.name] ++ (if v = Variant.ros then [channelValueType U a.channel.name] else []))

/-! ### the Makefile -/

/-- "output", gen/makefile/embed/templates/Makefile.tmpl:1 -/
def makeOutput (k : Str) : Str := c!"bin/" ++ k

/-- "reg_inputs", Makefile.tmpl:2 -/
def makeInputs (k : Str) : Str := c!"src/" ++ k ++ c!"/src/main.cpp src/rtcg/rtcg.cpp"

/-- "iconvert", Makefile.tmpl:3 -/
def makeIConvert (conv : Bool) : Str := if conv then c!" -Isrc/convert" else []

/-- "convert", Makefile.tmpl:4 -/
def makeConvert (conv : Bool) : Str := if conv then c!" src/convert/convert.cpp" else []

/-- One iteration of the rule for a test, Makefile.tmpl:16-19 -/
def makeRule (conv : Bool) (k : Str) : Str :=
  c!"\n" ++ makeOutput k ++ c!": " ++ makeInputs k ++ makeConvert conv ++
  c!"\n\t$(CXX) $(CXXFLAGS) -o $@ -Isrc/" ++ k ++ c!"/include -Isrc/rtcg" ++ makeIConvert conv ++ c!" " ++ makeInputs k ++ makeConvert conv

/-- text/template visits a map in increasing order of its keys. (text/template, called at gen/templating/templating.go:18.) -/
def sortedKeys (ks : List Str) : List Str := ks.mergeSort (fun a b => decide (a ≤ b))

/-- The text of the Makefile, Makefile.tmpl:5-19, with the white space trimming of `{{-` and `-}}` done -/
def makefileText (tests : List Str) (ctx : CppConfig.Context) : Str :=
  c!".POSIX:\n\nCXXFLAGS = -std=c++11 -Wall -Wextra\n\n.PHONY: all mkdir\n\nall: mkdir" ++
  (sortedKeys tests).flatMap (fun k => c!" " ++ makeOutput k) ++
  c!"\n\nmkdir:\n\tmkdir -p bin\n" ++
  (sortedKeys tests).flatMap (makeRule ctx.hasConversion) ++ c!"\n"

/-- The dependencies in a list of components, CMakeLists.txt.tmpl:14-16,22-24 -/
def cmakeDepends (depends : List Str) : Str := depends.flatMap (fun d => c!"\n    " ++ d)

/-- The text of CMakeLists.txt, gen/catkin/embed/templates/CMakeLists.txt.tmpl:6-60, with the white space trimming of `{{-` and `-}}`
done -/
def cmakeText (p : Catkin.Package) : Str :=
  c!"cmake_minimum_required(VERSION 3.0.2)\nproject(" ++ p.name ++
  c!")" ++ c!"\n\nadd_compile_options(-std=c++11)\n\nfind_package(catkin REQUIRED COMPONENTS\n    roscpp\n    std_msgs" ++ cmakeDepends p.depends ++
  c!"\n)" ++ c!"\n\ncatkin_package(CATKIN_DEPENDS\n    roscpp\n    std_msgs" ++ cmakeDepends p.depends ++
  c!"\n)" ++ c!"\n\ninclude_directories(\n    include\n    ${catkin_INCLUDE_DIRS}\n    ../convert/\n    ../rtcg/\n)\n\n" ++
  c!"add_library(convert\n    ../convert/convert.cpp\n)\n\nadd_library(rtcg\n    ../rtcg/rtcg.cpp\n)\n\n" ++
  c!"add_executable(${PROJECT_NAME}_node\n    src/main.cpp\n    ../convert/convert.cpp\n    ../rtcg/rtcg.cpp\n)\n\n" ++
  c!"set_target_properties(${PROJECT_NAME}_node PROPERTIES OUTPUT_NAME node PREFIX \"\")\n\n" ++
  c!"add_dependencies(${PROJECT_NAME}_node\n    ${${PROJECT_NAME}_EXPORTED_TARGETS}\n    ${catkin_EXPORTED_TARGETS}\n    convert\n    rtcg\n)\n\n" ++
  c!"target_link_libraries(${PROJECT_NAME}_node\n    ${catkin_LIBRARIES}\n    convert\n    rtcg\n)"

/-- The source files named in CMakeLists.txt, relative to the directory of the test:
gen/catkin/embed/templates/CMakeLists.txt.tmpl:33-47 -/
def cmakeSources : List Str := [c!"../convert/convert.cpp", c!"../rtcg/rtcg.cpp", c!"src/main.cpp"]

/-- The include directories named in CMakeLists.txt (those of catkin left out), CMakeLists.txt.tmpl:26-31 -/
def cmakeIncludes : List Str := [c!"include", c!"../convert/", c!"../rtcg/"]

/-- The targets defined in CMakeLists.txt: the libraries and the executable `${PROJECT_NAME}_node`, where the project is named after
the package, CMakeLists.txt.tmpl:7,33-47 -/
def cmakeTargets (p : Catkin.Package) : List Str := [c!"convert", c!"rtcg", p.name ++ c!"_node"]

/-- The headers of its own that main.cpp includes, base/includes.cpp.tmpl:17-18.  (User-configured includes left out.) -/
def headers : List Str := [c!"rtcg.h", c!"convert.h"]

end Templates

end Rtcg
