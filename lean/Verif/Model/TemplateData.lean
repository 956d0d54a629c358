import Verif.Model.TextTemplate
import Verif.Model.TemplateFiles
import Verif.Model.Templates

/-
The values that the templates of /repo are executed on, as text/template sees them through reflection; the function map; the files each
template set is parsed from; and the text written to main.cpp, convert.h, CMakeLists.txt and the Makefile.
-/

namespace Rtcg

namespace Tmpl

open Strmanip Cpp

/-- The Go values with fields or methods.  The comments name the Go types. (text/template, called at gen/templating/templating.go:18.) -/
inductive Obj where
  /-- *cpp.Context, gen/cpp/context.go:13-17: embeds gencommon.Context, gen/gencommon/context.go:12-19, and config/cpp Context; the date
  as it is printed -/
  | mainCtx (date name : Str) (m : Stm) (tc : TransitionContext) (ctx : CppConfig.Context)
  /-- Context, gen/config/cpp/context.go:11-15 -/
  | convCtx (ctx : CppConfig.Context)
  /-- *makefile.Context, gen/makefile/context.go:9-13; of the tests only the names matter -/
  | makeCtx (tests : List Str) (ctx : CppConfig.Context)
  /-- catkin.Package, gen/config/catkin/package.go:11-23 -/
  | package (p : Catkin.Package)
  /-- *stm.Stm, stm/stm.go:23-34 -/
  | stm (m : Stm)
  /-- structure.Set[string], structure/set.go -/
  | tests (s : GoSet Str)
  /-- TransitionContext, gen/gencommon/context.go:34-45 -/
  | transitions (tc : TransitionContext)
  /-- *stm.State, stm/state.go:13-25 -/
  | state (s : State)
  /-- *verdict.Verdict, stm/verdict/verdict.go:17 -/
  | verdict (v : Verdict)
  /-- testlang.Outcome -/
  | outcome (o : Outcome)
  /-- transition.Set, stm/transition/set.go:22-25 -/
  | tset (s : TSet)
  /-- transition.AggregateSet, stm/transition/set.go:59-66 -/
  | agg (a : AggregateSet)
  /-- transition.Transition, stm/transition/transition.go:13-17 -/
  | transition (t : Transition)
  /-- *transition.Flat, stm/transition/transition.go -/
  | flat (c : Channel) (t : Transition)
  /-- channel.Channel, testlang/channel/channel.go:13-16 -/
  | channel (c : Channel)
  /-- value.Value, testlang/value/value.go:18-20 -/
  | value (v : Value)
  /-- *rstype.RsType, not nil -/
  | rsType (t : RsType)
  /-- map[string]ChannelType, gen/config/cpp/context.go:13 -/
  | channelTypes (m : GoMap Str CppConfig.ChannelType)
  /-- ChannelType, gen/config/cpp/context.go:42-45 -/
  | channelType (t : CppConfig.ChannelType)
  /-- Include, gen/config/cpp/cpp.go:56-59 -/
  | include_ (i : CppConfig.Include)

/-- Values in templates. (text/template, called at gen/templating/templating.go:18.) -/
inductive Val where
  | str (s : Str)
  | num (n : Nat)
  | bool (b : Bool)
  | nil
  | list (l : List Val)
  | map (m : List (Str × Val))
  | obj (o : Obj)

/-- The entries of a map in increasing order of their keys: how text/template visits maps (internal/fmtsort)
(text/template, called at gen/templating/templating.go:18.) -/
def sortEntries {α : Type} (m : GoMap Str α) : GoMap Str α := m.mergeSort (fun a b => decide (a.1 ≤ b.1))

/-- A pointer to a type. (E.g. gen/config/cpp/context.go:43.) -/
def ofType : Option RsType → Val
  | some t => .obj (.rsType t)
  | none => .nil

/-- transition.StateMap, stm/transition/set.go:59 -/
def ofStateMap (m : GoMap Str (List Transition)) : Val :=
  .map (m.map (fun e => (e.1, .list (e.2.map (fun t => .obj (.transition t))))))

/-- The fields promoted from config/cpp Context. (gen/config/cpp/context.go:11-15.) -/
def ctxField (ctx : CppConfig.Context) (f : Str) : Res Val :=
  if f = c!"Includes" then .ok (.list (ctx.includes.map (fun i => .obj (.include_ i))))
  else if f = c!"ChannelTypes" then .ok (.obj (.channelTypes ctx.channelTypes))
  else if f = c!"HasConversion" then .ok (.bool ctx.hasConversion)
  else throwErr .template

/-- evalField (text/template/exec.go): the fields and the methods without arguments of the Go types; those that no template uses are left
out.  A method that panics is an error of the execution (safeCall, text/template/funcs.go). -/
def objField : Obj → Str → Res Val
  | .mainCtx date name m tc ctx, f =>
    if f = c!"Name" then .ok (.str name)
    else if f = c!"Date" then .ok (.str date)
    else if f = c!"Stm" then .ok (.obj (.stm m))
    else if f = c!"Transitions" then .ok (.obj (.transitions tc))
    else ctxField ctx f
  | .convCtx ctx, f => ctxField ctx f
  | .makeCtx tests ctx, f =>
    if f = c!"Tests" then .ok (.map (tests.map (fun k => (k, .nil)))) else ctxField ctx f
  | .package p, f =>
    if f = c!"Name" then .ok (.str p.name)
    else if f = c!"Depends" then .ok (.list (p.depends.map .str))
    else throwErr .template
  | .stm m, f =>
    if f = c!"States" then .ok (.list (m.states.map (fun s => .obj (.state s))))
    else if f = c!"Tests" then .ok (.obj (.tests m.tests))
    else if f = c!"InitialState" then
      match m.initialState with
      | .ok id => .ok (.str id)
      | .error _ => throwErr .template
    else throwErr .template
  | .tests s, f => if f = c!"Values" then .ok (.list ((GoSet.values s).map .str)) else throwErr .template
  | .transitions tc, f =>
    if f = c!"In" then .ok (.list (tc.in_.map (fun a => .obj (.agg a))))
    else if f = c!"Out" then .ok (.list (tc.out.map (fun a => .obj (.agg a))))
    else if f = c!"InMerged" then .ok (ofStateMap tc.inMerged)
    else if f = c!"HasIn" then .ok (.bool tc.hasIn)
    else if f = c!"FirstStateHasIn" then .ok (.bool tc.firstStateHasIn)
    else throwErr .template
  | .state s, f =>
    if f = c!"ID" then .ok (.str s.id)
    else if f = c!"Verdict" then .ok (.obj (.verdict s.verdict))
    else if f = c!"HasIn" then .ok (.bool s.hasIn)
    else if f = c!"In" then
      match s.in_ with
      | some (c, t) => .ok (.obj (.flat c t))
      | none => .ok .nil
    else if f = c!"TransitionSets" then .ok (.list (s.transitionSets.map (fun t => .obj (.tset t))))
    else throwErr .template
  | .verdict v, f => if f = c!"IsFail" then .ok (.bool v.isFail) else throwErr .template
  | .outcome _, _ => throwErr .template
  | .tset s, f =>
    if f = c!"Channel" then .ok (.obj (.channel s.channel))
    else if f = c!"Transitions" then .ok (.list (s.transitions.map (fun t => .obj (.transition t))))
    else throwErr .template
  | .agg a, f =>
    if f = c!"Channel" then .ok (.obj (.channel a.channel))
    else if f = c!"States" then .ok (ofStateMap a.states)
    else throwErr .template
  | .transition t, f =>
    if f = c!"Value" then .ok (.obj (.value t.value))
    else if f = c!"Next" then .ok (.str t.next)
    else throwErr .template
  | .flat c t, f =>
    if f = c!"Channel" then .ok (.obj (.channel c))
    else if f = c!"Value" then .ok (.obj (.value t.value))
    else if f = c!"Next" then .ok (.str t.next)
    else throwErr .template
  | .channel c, f => if f = c!"Name" then .ok (.str c.name) else throwErr .template
  | .value v, f =>
    if f = c!"Type" then .ok (.obj (.rsType v.type))
    else if f = c!"StringValue" then .ok (.str v.stringValue)
    else throwErr .template
  | .rsType t, f => if f = c!"IsEnum" then .ok (.bool t.isEnum) else throwErr .template
  | .channelTypes _, _ => throwErr .template
  | .channelType t, f =>
    if f = c!"Base" then .ok (ofType t.base)
    else if f = c!"Override" then .ok (.str t.override)
    else if f = c!"HasOverride" then .ok (.bool t.hasOverride)
    else throwErr .template
  | .include_ i, f =>
    if f = c!"Src" then .ok (.str i.src)
    else if f = c!"IsSystem" then .ok (.bool i.isSystem)
    else throwErr .template

/-- evalField: nothing else has fields; a nil pointer has none either. (text/template, called at gen/templating/templating.go:18.) -/
def field : Val → Str → Res Val
  | .obj o, f => objField o f
  | _, _ => throwErr .template

/-- A function of one string. (gen/templating/func.go:12-16, gen/cpp/func.go:16-29.) -/
def onStr (f : Str → Str) : List Val → Res Val
  | [.str s] => .ok (.str (f s))
  | _ => throwErr .template

/-- `index`, text/template/funcs.go: an element of a list, or the element of a map for a key, which is the zero value if there is none -/
def index : List Val → Res Val
  | [v] => .ok v
  | [.list l, .num n] =>
    match l[n]? with
    | some v => .ok v
    | none => throwErr .template
  | [.obj (.channelTypes m), .str k] => .ok (.obj (.channelType ((GoMap.get? m k).getD ⟨none, []⟩)))
  | _ => throwErr .template

/-- The functions: Funcs, gen/cpp/func.go:14-29 and gen/templating/func.go:11-17 (cppTestEnum and upcaseFirst are not used), and the
built-in `index` and `ne`.  A nil pointer is refused where a value is wanted (validateType, text/template/exec.go). -/
def call (U : Unicode) (f : Str) (args : List Val) : Res Val :=
  if f = c!"index" then index args
  else if f = c!"ne" then
    match args with
    | [.num a, .num b] => .ok (.bool (a ≠ b))
    | _ => throwErr .template
  else if f = c!"toUpper" then onStr U.strToUpper args
  else if f = c!"toLowerUnderscored" then onStr (toLowerUnderscored U) args
  else if f = c!"cppCallbackName" then onStr callbackName args
  else if f = c!"cppChannelMsgType" then onStr (channelMsgType U) args
  else if f = c!"cppChannelValueType" then onStr (channelValueType U) args
  else if f = c!"cppConvertFrom" then onStr (convertFrom U) args
  else if f = c!"cppConvertTo" then onStr (convertTo U) args
  else if f = c!"cppEnumField" then onStr (enumField U) args
  else if f = c!"cppStateEntry" then onStr (stateEntry U) args
  else if f = c!"cppStateEnum" then onStr (stateEnum U) args
  else if f = c!"cppOutcomeEnum" then
    match args with
    | [.obj (.outcome o)] => .ok (.str (outcomeEnum U o))
    | _ => throwErr .template
  else if f = c!"cppType" then
    match args with
    | [.obj (.rsType t)] => .ok (.str (stdType t))
    | _ => throwErr .template
  else if f = c!"cppValue" then
    match args with
    | [.obj (.value v)] => .ok (.str (Cpp.value v))
    | _ => throwErr .template
  else throwErr .template

/-- isTrue, text/template/exec.go: structs and non-nil pointers are true -/
def truth : Val → Bool
  | .str s => !s.isEmpty
  | .num n => n ≠ 0
  | .bool b => b
  | .nil => false
  | .list l => !l.isEmpty
  | .map m => !m.isEmpty
  | .obj _ => true

/-- walkRange, text/template/exec.go: a list with positions, or a map in the order of its keys -/
def items : Val → Res (List (Val × Val))
  | .list l => .ok (l.zipIdx.map (fun vi => (.num vi.2, vi.1)))
  | .map m => .ok ((sortEntries m).map (fun e => (.str e.1, e.2)))
  | .obj (.verdict v) => .ok ((sortEntries v).map (fun e => (.str e.1, .obj (.outcome e.2))))
  | .obj (.channelTypes m) => .ok ((sortEntries m).map (fun e => (.str e.1, .obj (.channelType e.2))))
  | _ => throwErr .template

/-- rstype.String, testlang/rstype/rstype.go:57-63.  Simplification: a type that has no name is printed as nothing. -/
def typeString (t : RsType) : Str := t.tryString.getD []

/-- printValue, text/template/exec.go: strings, and what has a String method.  A nil pointer to a type prints as "<nil>".  Simplification:
nothing else is printed by the templates. -/
def print : Val → Str
  | .str s => s
  | .obj (.channel c) => c.string
  | .obj (.rsType t) => typeString t
  | .nil => c!"<nil>"
  | _ => []

/-- All of it. (text/template, called at gen/templating/templating.go:18.) -/
def data (U : Unicode) : Data Val :=
  { str := .str, num := .num, field := field, call := call U, truth := truth, items := items, print := print, none := .nil }

/-! ### the template sets -/

open TemplateFiles

/-- gen/cpp/embed/templates/base/*.cpp.tmpl, in the order of fs.Glob -/
def baseFiles : List (Str × Str) :=
  [ (c!"base.cpp.tmpl", baseCpp), (c!"entry.cpp.tmpl", entryCpp), (c!"in_callback.cpp.tmpl", inCallbackCpp),
    (c!"includes.cpp.tmpl", includesCpp), (c!"out_callback.cpp.tmpl", outCallbackCpp), (c!"state_entry.cpp.tmpl", stateEntryCpp),
    (c!"state_meta.cpp.tmpl", stateMetaCpp), (c!"stm.cpp.tmpl", stmCpp), (c!"verdict.cpp.tmpl", verdictCpp) ]

/-- The templates of the variant, gen/cpp/template.go:67-77 -/
def variantFiles (v : Variant) : List (Str × Str) :=
  if v = Variant.animate then [(c!"main.cpp.tmpl", animateMainCpp), (c!"main_body.cpp.tmpl", animateMainBodyCpp)]
  else if v = Variant.ros then [(c!"main.cpp.tmpl", rosMainCpp), (c!"main_body.cpp.tmpl", rosMainBodyCpp)]
  else []

/-- The convert.h templates of the variant -/
def variantConvertFiles (v : Variant) : List (Str × Str) :=
  if v = Variant.animate then [(c!"convert.h.tmpl", animateConvertH)]
  else if v = Variant.ros then [(c!"convert.h.tmpl", rosConvertH)]
  else []

/-- buildFile for main.cpp, gen/cpp/template.go:32-42 and gen/templating/set.go:58-73 -/
def mainSet (v : Variant) : Option (GoMap Str Node) := parseFiles [] (baseFiles ++ variantFiles v)

/-- buildFile for convert.h, gen/cpp/template.go:28-30 -/
def convertSet (v : Variant) : Option (GoMap Str Node) :=
  parseFiles [] ((c!"convert_base.h.tmpl", convertBaseH) :: variantConvertFiles v)

/-- parseTemplate, gen/makefile/template.go:13-21 -/
def makefileSet : Option (GoMap Str Node) := parseFiles [] [(c!"Makefile.tmpl", makefile)]

/-- NewTemplatedGenerator, gen/catkin/template.go:15-34 -/
def cmakeSet : Option (GoMap Str Node) := parseFiles [] [(c!"CMakeLists.txt.tmpl", cmakeLists)]

/-- ExecuteTemplate on a set that was parsed (a set that fails to parse makes the construction of the generator fail) (gen/templating/templating.go:18.) -/
def executeSet (U : Unicode) (set : Option (GoMap Str Node)) (name : Str) (o : Obj) : Out :=
  match set with
  | none => ([], throwErr .template)
  | some set => execute (data U) set maxDepth name (.obj o)

/-- What executing the template for a file writes to it, and how it ends: CreateFile, gen/templating/templating.go:11-22, from
gen/templating/set.go:25-34.  `date` is the time of generation as time.Time prints itself. -/
def render (U : Unicode) (date : Str) : Content → Out
  | .mainCpp v name m tc ctx => executeSet U (mainSet v) c!"main.cpp.tmpl" (.mainCtx date name m tc ctx)
  | .convertH v ctx => executeSet U (convertSet v) c!"convert.h.tmpl" (.convCtx ctx)
  | .makefile tests ctx => executeSet U makefileSet c!"Makefile.tmpl" (.makeCtx tests ctx)
  | .cmake p => executeSet U cmakeSet c!"CMakeLists.txt.tmpl" (.package p)
  | _ => ([], .ok ())

end Tmpl

end Rtcg
