import Verif.Model.Programs

/-
Go leaves open, and randomises, the order in which `range` visits the entries of a map (and so in which `(*Set).Values` lists a set).  The
other files of the model take the order of the association list.  Here are the programs with every order allowed at every `range` over a
map: a relation between the input and each result that is possible.
-/

namespace Rtcg

namespace Order

/-- The entries of a map in another order, and each value changed as `P` allows. (E.g. stm/verdict/verdict.go:17.) -/
def MapTo {α : Type} (P : α → α → Prop) (m m' : GoMap Str α) : Prop :=
  ∃ l, m.Perm l ∧ List.Forall₂ (fun x y => x.1 = y.1 ∧ P x.2 y.2) l m'

/-- The same state with its verdict (verdict.go:17) in another order -/
def StateTo (s s' : State) : Prop := s'.id = s.id ∧ s'.transitionSets = s.transitionSets ∧ List.Perm s.verdict s'.verdict

/-- The same machine with its verdicts, its types (stm.go:30) and its set of tests (stm.go:33) in other orders -/
def StmTo (m m' : Stm) : Prop :=
  List.Forall₂ StateTo m.states m'.states ∧ List.Perm m.types m'.types ∧ List.Perm m.tests m'.tests

/-- The same suite of machines, with all its maps in other orders. (stm/suite.go:11-14.) -/
def SuiteTo (s s' : StmSuite) : Prop := List.Perm s.types s'.types ∧ MapTo StmTo s.tests s'.tests

/-- What rtcg-read-traces may write for a traces file, cmd/rtcg-read-traces/main.go:20-49: `readTracesProgram`, where OverMap
(structure/map.go:23), called by ExpandAll (expand.go:25-29), and encoding/json visit their maps in any order.  Reading the file and naming
the traces (trace.go:84-123) range over slices only. -/
def MayReadTraces (file : Str) (out : Res Json) : Prop :=
  match (Forbidden.read file).getD (.error .panic) with
  | .error f => out = .error f
  | .ok traces =>
    match Forbidden.nameAll traces with
    | none => out = .error .panic   -- fuel: never
    | some named => ∃ named' tests, List.Perm named named' ∧ List.Perm (Forbidden.expandAll named') tests ∧
        out = Json.encodeSuite (tests.map fun kn => (kn.1, some kn.2))

/-- What rtcg-make-stms may write for a test suite, cmd/rtcg-make-stms/main.go:48-91: `makeStmsProgram`, where TryOverMapValues
(structure/map.go:7, for validate.FullSuite), BuildMany (builder.go:59), unifyTypes (builder.go:41,42), (*Verdict).MarshalJSON
(verdict.go:109), (*Set).Values (structure/set.go:33, for MarshalJSON) and encoding/json visit their maps in any order.  Build itself ranges
over slices only. -/
def MayMakeStms (input : Json) (out : Res Json) : Prop :=
  match Json.decodeSuite input with
  | .error f => out = .error f
  | .ok s => ∃ s', List.Perm s s' ∧
    match Validate.fullSuite s' with
    | .error f => out = .error f
    | .ok vs => ∃ vs', List.Perm vs vs' ∧
      match Builder.zero.buildMany vs' with
      | .error f => out = .error f
      | .ok (_, ms) => ∃ ms', MapTo StmTo ms ms' ∧
        match Builder.unifyTypes ms' with
        | .error f => out = .error f
        | .ok types => ∃ stms, SuiteTo ⟨types, ms⟩ stms ∧ out = Json.encodeStmSuite stms

/-- A program that reads a file or standard input and writes JSON, and what it may make of a text (see `Program.readTraces`).
(cmd/rtcg-read-traces/main.go:20-58, cmd/rtcg-make-stms/main.go:21-91.) -/
def MayRun (may : Str → Res Json → Prop) (T : TextLayer) (env : Env) (argv : List Str) (out : Str × Res Unit) : Prop :=
  match Cli.parseFileArgument argv 2 with
  | .error e => out = ([], .error e)
  | .ok path =>
    match Program.readFileOrStdin T env path with
    | .error e => out = ([], .error e)
    | .ok text => ∃ r, may text r ∧ out = Program.written r

/-- What a run of rtcg-read-traces may write to standard output, and its result, cmd/rtcg-read-traces/main.go:20-58 -/
def MayReadTracesMain (T : TextLayer) (env : Env) (argv : List Str) (out : Str × Res Unit) : Prop :=
  MayRun MayReadTraces T env argv out

/-- What a run of rtcg-make-stms may write to standard output, and its result, cmd/rtcg-make-stms/main.go:21-91 -/
def MayMakeStmsMain (T : TextLayer) (env : Env) (argv : List Str) (out : Str × Res Unit) : Prop :=
  MayRun (fun text r =>
    match Json.parse text with
    | .error e => r = .error e
    | .ok j => MayMakeStms j r) T env argv out

/-! ### rtcg-gen -/

/-- The same aggregate with its map of states (transition/set.go:59) in another order -/
def AggTo (a a' : AggregateSet) : Prop := a'.channel = a.channel ∧ List.Perm a.states a'.states

/-- The same template context with its maps in other orders. (gen/gencommon/context.go:34-45.) -/
def TcTo (c c' : TransitionContext) : Prop :=
  c'.channels = c.channels ∧ List.Forall₂ AggTo c.all c'.all ∧ List.Forall₂ AggTo c.in_ c'.in_ ∧ List.Forall₂ AggTo c.out c'.out ∧
  List.Perm c.inMerged c'.inMerged ∧ c'.hasIn = c.hasIn ∧ c'.firstStateHasIn = c.firstStateHasIn

/-- The same configuration context with its map of channel types (gen/config/cpp/context.go:13) in another order -/
def CtxTo (c c' : CppConfig.Context) : Prop :=
  c'.includes = c.includes ∧ List.Perm c.channelTypes c'.channelTypes ∧ c'.hasConversion = c.hasConversion

/-- populateFilters, gen/gencommon/context.go:56-66, where the `range` over the states of an input (51) takes any order -/
def MayPopulate : List AggregateSet → TransitionContext → TransitionContext → Prop
  | [], c, c' => c' = c
  | tra :: rest, c, c' => ∃ tra', AggTo tra tra' ∧
      MayPopulate rest
        (if tra'.channel.isIn then { c with channels := c.channels ++ [tra'.channel] }.addInput tra'
         else { c with channels := c.channels ++ [tra'.channel], out := c.out ++ [tra'] }) c'

/-- makeTransitions, gen/gencommon/context.go:68-85, and the orders in which templates may then see its maps.  TransitionSets (stm.go:45-55)
ranges over slices only. -/
def MayTransitions (m : Stm) (tc : TransitionContext) : Prop :=
  ∃ tc0, MayPopulate m.aggregates ⟨[], m.aggregates, [], [], [], false, TransitionContext.firstHasIn m⟩ tc0 ∧ TcTo tc0 tc

/-- The same template, or file to copy, on the same data with its maps in other orders. (gen/templating/templating.go:12-21, gen/cpp/copy.go:49-75.) -/
inductive ContentTo : Content → Content → Prop
  | convertH {v : Variant} {ctx ctx' : CppConfig.Context} (h : CtxTo ctx ctx') : ContentTo (.convertH v ctx) (.convertH v ctx')
  | mainCpp {v : Variant} {name : Str} {m m' : Stm} {tc tc' : TransitionContext} {ctx ctx' : CppConfig.Context} (hm : StmTo m m')
      (ht : TcTo tc tc') (h : CtxTo ctx ctx') : ContentTo (.mainCpp v name m tc ctx) (.mainCpp v name m' tc' ctx')
  | makefile {tests tests' : List Str} {ctx ctx' : CppConfig.Context} (ht : List.Perm tests tests') (h : CtxTo ctx ctx') :
      ContentTo (.makefile tests ctx) (.makefile tests' ctx')
  | same (c : Content) : ContentTo c c

/-- The same operation, writing the same content up to the order of its maps. (gen/gen.go:152, gen/templating/templating.go:13-20, gen/cpp/copy.go:49-75.) -/
inductive OpTo : Op → Op → Prop
  | write {p : Str} {c c' : Content} (h : ContentTo c c') : OpTo (.write p c) (.write p c')
  | same (op : Op) : OpTo op op

/-- generateTest, gen/cpp/cpp.go:130-138, with NewContext (gencommon/context.go:22-29) -/
def MayTest (src : DirSet) (v : Variant) (ctx : CppConfig.Context) (nt : Str × Stm) (op : Op) : Prop :=
  ∃ tc, MayTransitions nt.2 tc ∧ op = .write (joinPath [(src.subdir nt.1).output, c!"src", c!"main.cpp"]) (.mainCpp v nt.1 nt.2 tc ctx)

/-- The directories that may be made for one C++ configuration: `Gen.mkdirOps`, where Process (gen/config/cpp/context.go:28) and Dirs
(gen/cpp/cpp.go:68) visit their maps in any order -/
def MayMkdirs (dirs : DirSet) (suite : StmSuite) (c : CppConfig.Config) (ops : List Op) : Prop :=
  ∃ suite', SuiteTo suite suite' ∧ ops = Gen.mkdirOps dirs suite' c

/-- The files that may be written for one C++ configuration: `Gen.writeOps`, where Process (gen/config/cpp/context.go:28), the generators
(gen/cpp/cpp.go:119, gen/catkin/catkin.go:71) and the templates visit their maps in any order.  (text/template itself then visits maps in the
order of their keys; but not sets, whose `Values` it gets.)  Process is run anew by each generator (gen/cpp/cpp.go:42-48, gen/makefile/makefile.go:27-33). -/
def MayWrites (dirs : DirSet) (suite : StmSuite) (c : CppConfig.Config) (ops : List Op) : Prop :=
  ∃ s₁ s₂ s₃ tests ops0, SuiteTo suite s₁ ∧ SuiteTo suite s₂ ∧ SuiteTo suite s₃ ∧
    List.Forall₂ (MayTest ((Gen.variantDirs dirs c).subdir c!"src") c.variant (c.process s₁.types)) s₁.tests tests ∧
    ops0 = CppGen.copyPrelude ((Gen.variantDirs dirs c).subdir c!"src") ++
        CppGen.generateCommon ((Gen.variantDirs dirs c).subdir c!"src") c.variant (c.process s₁.types) ++ tests ++
      (match c.catkin with
        | none => []
        | some pkg => CatkinGen.generate ((Gen.variantDirs dirs c).subdir c!"src") pkg s₂) ++
      (if c.makefile then MakefileGen.generate (Gen.variantDirs dirs c) (c.process s₃.types) s₃ else []) ∧
    List.Forall₂ OpTo ops0 ops

/-- All operations that a generation may do: `Gen.ops`, gen.go:104-144, with any orders -/
def MayOps (cfg : GenConfig) (outputDir : Str) (suite : StmSuite) (ops : List Op) : Prop :=
  ∃ mk wr, List.Forall₂ (MayMkdirs ⟨cfg.directory, outputDir⟩ suite) cfg.cpps mk ∧
    List.Forall₂ (MayWrites ⟨cfg.directory, outputDir⟩ suite) cfg.cpps wr ∧ ops = mk.flatten ++ wr.flatten

/-- What a run of rtcg-gen may do to the file system, and its result, cmd/rtcg-gen/main.go:27-132: `Program.gen` with any orders -/
def MayGenMain (T : TextLayer) (env : Env) (clean : Bool) (output : Str) (argv : List Str) (out : Fs × Res Unit) : Prop :=
  match Cli.genArgs argv with
  | .error e => out = (env.fs, .error e)
  | .ok (input, config) =>
    match Program.readSuite T env (cleanPath input) with
    | .error e => out = (env.fs, .error e)
    | .ok (suite, missing) =>
      match Gen.maybeClean env.cwd env.fs clean (cleanPath output) with
      | (fs, .error e) => out = (fs, .error e)
      | (fs, .ok ()) =>
        match Program.loadConfig T env.cwd fs (cleanPath config) with
        | .error e => out = (fs, .error e)
        | .ok cfg => ∃ ops, MayOps cfg (cleanPath output) suite ops ∧ out = Templates.runRead missing env.cwd fs ops

/-- What rtcg-gen, run with its flags, may leave on disk, and its exit code, cmd/rtcg-gen/main.go:19-58: `Program.genMain` with any orders -/
def MayGenCommand (T : TextLayer) (env : Env) (args : List Str) (out : Fs × Nat) : Prop :=
  match Program.parseFlags ⟨false, c!"out"⟩ args with
  | .error code => out = (env.fs, code)
  | .ok (f, argv) => ∃ o, MayGenMain T env f.clean f.output argv o ∧ out = (o.1, Program.exitCode o.2)

/-- What rtcg.sh, given a configuration and a traces file, may leave on disk, and its exit code, rtcg.sh:8-25: `Program.pipeline` with any
orders in each of the three programs -/
def MayScript (T : TextLayer) (env : Env) (config trace : Str) (out : Fs × Nat) : Prop :=
  ∃ r₁ r₂, MayReadTracesMain T env [c!"./bin/rtcg-read-traces", trace] r₁ ∧
    MayMakeStmsMain T { env with stdin := r₁.1 } [c!"./bin/rtcg-make-stms", c!"-"] r₂ ∧
    MayGenCommand T { env with stdin := r₂.1 } [config, c!"-"] out

end Order

end Rtcg
