import Verif.Model.Programs
import Verif.Model.ExampleFiles

/-
The model against what the repository says of itself: the expectations of its unit tests, and the outputs that come with its example, which
were written by the programs.  These are tests of the model, not properties; each is checked by the kernel.
-/

namespace Rtcg.Conformance

open ExampleFiles

/-- Letters as in ASCII; the tests have no others. -/
def ascii : Unicode := ⟨Char.toUpper, Char.toLower, Char.isUpper, Char.isLower⟩

/-- No names beyond ASCII -/
def names : XmlNames := ⟨fun _ => false, fun _ => false⟩

/-! ### comparing JSON values -/

mutual

/-- Are two JSON values the same? -/
def same : Json → Json → Bool
  | .null, .null => true
  | .bool a, .bool b => a == b
  | .num a, .num b => decide (a = b)
  | .str a, .str b => decide (a = b)
  | .arr a, .arr b => sameElems a b
  | .obj a, .obj b => sameFields a b
  | _, _ => false

def sameElems : List Json → List Json → Bool
  | [], [] => true
  | a :: as, b :: bs => same a b && sameElems as bs
  | _, _ => false

def sameFields : List (Str × Json) → List (Str × Json) → Bool
  | [], [] => true
  | (k, a) :: as, (l, b) :: bs => decide (k = l) && same a b && sameFields as bs
  | _, _ => false

end

mutual

theorem eq_of_same : ∀ {a b : Json}, same a b = true → a = b
  | .null, b, h => by cases b <;> simp_all [same]
  | .bool a, b, h => by cases b <;> simp_all [same]
  | .num a, b, h => by cases b <;> simp_all [same]
  | .str a, b, h => by cases b <;> simp_all [same]
  | .arr a, b, h => by
    cases b <;> simp only [same, Bool.false_eq_true] at h
    rw [eq_of_sameElems h]
  | .obj a, b, h => by
    cases b <;> simp only [same, Bool.false_eq_true] at h
    rw [eq_of_sameFields h]

theorem eq_of_sameElems : ∀ {a b : List Json}, sameElems a b = true → a = b
  | [], b, h => by cases b <;> simp_all [sameElems]
  | x :: a, b, h => by
    cases b with
    | nil => simp [sameElems] at h
    | cons y b =>
      simp only [sameElems, Bool.and_eq_true] at h
      rw [eq_of_same h.1, eq_of_sameElems h.2]

theorem eq_of_sameFields : ∀ {a b : List (Str × Json)}, sameFields a b = true → a = b
  | [], b, h => by cases b <;> simp_all [sameFields]
  | (k, x) :: a, b, h => by
    cases b with
    | nil => simp [sameFields] at h
    | cons y b =>
      obtain ⟨l, y⟩ := y
      simp only [sameFields, Bool.and_eq_true, decide_eq_true_eq] at h
      rw [h.1.1, eq_of_same h.1.2, eq_of_sameFields h.2]

end

/-- Is a result that value? -/
def gives : Res Json → Json → Bool
  | .ok a, b => same a b
  | _, _ => false

theorem eq_of_gives {r : Res Json} {j : Json} (h : gives r j = true) : r = .ok j := by
  cases r with
  | error e => simp [gives] at h
  | ok a => rw [eq_of_same h]

/-! ### examples/bmon: the texts that the programs wrote -/

/-- The value of examples/bmon/tests.json -/
def tests : Json := match Json.parse testsJson with | .ok j => j | _ => .null

set_option maxRecDepth 100000 in
theorem parse_tests : Json.parse testsJson = .ok tests := by
  have : (match Json.parse testsJson with | .ok _ => true | _ => false) = true := by decide +kernel
  unfold tests
  revert this
  cases Json.parse testsJson <;> simp

set_option maxRecDepth 100000 in
/-- From examples/bmon/traces, rtcg-read-traces writes examples/bmon/tests.json, to the last character. -/
theorem bmon_tests (T : TextLayer) (fs : Fs) (cwd : Loc) :
    Program.readTraces T ⟨cwd, fs, traces⟩ [c!"rtcg-read-traces"] = (testsJson, .ok ()) := by
  have h1 : readTracesProgram traces = .ok tests := eq_of_gives (by decide +kernel)
  have h2 : Json.depth tests = 11 := by decide +kernel
  have h3 : Json.print 0 tests ++ ['\n'] = testsJson := by decide +kernel
  have h4 : Json.write tests = .ok testsJson := by
    unfold Json.write
    rw [h2, if_pos (by decide), h3]
  show Program.written (readTracesProgram traces) = _
  rw [h1]
  simp only [Program.written, h4]

set_option maxRecDepth 100000 in
/-- From examples/bmon/tests.json, rtcg-make-stms writes examples/bmon/stms.json, to the last character. -/
theorem bmon_stms (T : TextLayer) (fs : Fs) (cwd : Loc) :
    Program.makeStms T ⟨cwd, fs, testsJson⟩ [c!"rtcg-make-stms"] = (stmsJson, .ok ()) := by
  have h1 : makeStmsProgram tests = .ok stms := eq_of_gives (by decide +kernel)
  have h2 : Json.depth stms = 9 := by decide +kernel
  have h3 : Json.print 0 stms ++ ['\n'] = stmsJson := by decide +kernel
  have h4 : Json.write stms = .ok stmsJson := by
    unfold Json.write
    rw [h2, if_pos (by decide), h3]
  have h5 : Cli.parseFileArgument [c!"rtcg-make-stms"] 2 = .ok c!"-" := by decide
  simp only [Program.makeStms, h5, Program.readFileOrStdin, if_true, parse_tests, h1, Program.written, h4]

/-- Is a map that list of entries, in some order? -/
def isMap {α : Type} [DecidableEq α] (m : GoMap Str α) (l : List (Str × α)) : Bool :=
  decide (m.length = l.length) && l.all fun kv => decide (GoMap.get? m kv.1 = some kv.2)

/-! ### internal/testlang/channel/kind_test.go:11-69 -/

example : [Kind.in_, .out, .call].map Kind.string = [c!"in", c!"out", c!"call"] := by decide

example : [c!"in", c!"out", c!"call", c!"IN", c!"OUT", c!"CALL"].map Kind.parse =
    [.ok .in_, .ok .out, .ok .call, .ok .in_, .ok .out, .ok .call] := by decide

/-! ### internal/testlang/channel/channel_test.go:12-86 -/

example : [(⟨c!"foo", .in_⟩ : Channel), ⟨c!"bar", .out⟩].map Channel.marshalText = [c!"foo.in", c!"bar.out"] := by decide

example : [c!"", c!"  "].map (fun t => (Channel.unmarshalText .zero t).2) = [some (.err (.badFieldCount 1)), some (.err (.badFieldCount 1))] := by decide

example : [c!"foo.in", c!"bar.out", c!"  foo.in", c!"foo  .in", c!"foo.  in", c!"foo.in  "].map (Channel.unmarshalText .zero) =
    [(⟨c!"foo", .in_⟩, none), (⟨c!"bar", .out⟩, none), (⟨c!"foo", .in_⟩, none), (⟨c!"foo", .in_⟩, none), (⟨c!"foo", .in_⟩, none),
      (⟨c!"foo", .in_⟩, none)] := by decide +kernel

/-! ### internal/testlang/value/value_test.go:11-70, int_test.go:12-35 -/

example : [Value.int 42, .enum c!"Ok"].map Value.marshalText = [.ok c!"42", .ok c!"Ok"] := by decide +kernel

example : [c!"42", c!"Ok", c!"  42", c!"42  ", c!"  Ok", c!"Ok  "].map Value.unmarshalText =
    [.ok (.int 42), .ok (.enum c!"Ok"), .ok (.int 42), .ok (.int 42), .ok (.enum c!"Ok"), .ok (.enum c!"Ok")] := by decide +kernel

example : [Value.int 4, .int 0, .int (-4)].map Value.type = [.arithmos .nat, .arithmos .nat, .arithmos .int] := by decide +kernel

/-! ### internal/testlang/outcome_test.go:10-34 -/

example : [Outcome.unset, .inc, .fail, .pass, ⟨Outcome.pass.val + 1⟩].map Outcome.string = [c!"unset", c!"inc", c!"fail", c!"pass", c!"Outcome(4)"] := by
  decide +kernel

/-! ### internal/testlang/event_test.go:14-94 -/

example : [Event.input c!"foo" .none, .input c!"foo" (.int 42), .output c!"bar" (.enum c!"Ok")].map Event.marshalText =
    [.ok c!"foo.in", .ok c!"foo.in.42", .ok c!"bar.out.Ok"] := by decide +kernel

example : [c!"", c!"  "].map (fun t => (Event.unmarshalText .zero t).2) = [some (.err (.badFieldCount 1)), some (.err (.badFieldCount 1))] := by decide

example : [c!"foo.in", c!"foo.in.42", c!"bar.out.Ok"].map (Event.unmarshalText .zero) =
    [(.input c!"foo" .none, none), (.input c!"foo" (.int 42), none), (.output c!"bar" (.enum c!"Ok"), none)] := by decide +kernel

example : ∀ t ∈ [c!"  foo.in.42", c!"foo  .in.42", c!"foo.  in.42", c!"foo.in  .42", c!"foo.in.  42", c!"foo.in.42  "],
    Event.unmarshalText .zero t = (.input c!"foo" (.int 42), none) := by decide +kernel

/-! ### internal/testlang/node_test.go:12-55 -/

example (e : Event) (next : List Node) : Node.pass e next = ⟨[], [], .pass, some e, next⟩ ∧ Node.inc e next = ⟨[], [], .inc, some e, next⟩ ∧
    Node.fail = ⟨[], [], .fail, none, []⟩ := ⟨rfl, rfl, rfl⟩

/-! ### internal/trace/trace_test.go:52-86 (TestName) -/

def barOut : Event := .output c!"bar" .none
def fooIn : Event := .input c!"foo" .none
def bazOut : Event := .output c!"baz" (.int 2)

example : (Forbidden.nameAll [⟨[], [], barOut⟩, ⟨[], [fooIn], barOut⟩, ⟨c!"named", [fooIn, bazOut, fooIn], barOut⟩, ⟨[], [bazOut], barOut⟩,
      ⟨c!"named", [fooIn, bazOut], barOut⟩, ⟨c!"test", [bazOut], bazOut⟩]).map (fun m => isMap m
    [(c!"test0", ⟨[], [], barOut⟩), (c!"test1", ⟨[], [fooIn], barOut⟩), (c!"named", ⟨c!"named", [fooIn, bazOut, fooIn], barOut⟩),
      (c!"test2", ⟨[], [bazOut], barOut⟩), (c!"named0", ⟨c!"named", [fooIn, bazOut], barOut⟩), (c!"test3", ⟨c!"test", [bazOut], bazOut⟩)]) =
    some true := by decide +kernel

/-! ### internal/trace/expand_test.go:13-52 -/

example (e₁ e₂ : Event) (name : Str) :
    Node.markAll (.root [.testPoint e₁ []]) [name] = some (.ok (Forbidden.expand ⟨[], [], e₁⟩ name)) ∧
    Node.markAll (.root [.inc e₂ [.testPoint e₁ []]]) [name] = some (.ok (Forbidden.expand ⟨[], [e₂], e₁⟩ name)) := ⟨rfl, rfl⟩

/-! ### internal/trace/read_test.go:13-51 -/

example : Forbidden.read c!"\nbar.out\nfoo.in, bar.out\nnamed: foo.in, baz.out.2, foo.in, bar.out\n" =
    some (.ok [⟨[], [], barOut⟩, ⟨[], [fooIn], barOut⟩, ⟨c!"named", [fooIn, bazOut, fooIn], barOut⟩]) := by decide +kernel

/-! ### internal/validate/validate_test.go:12-41 -/

/-- `MarkAll` -/
def marked (n : Node) (t : Str) : Node := ((n.markAll [t]).getD (.error .panic)).toOption.getD n

def branch1 : Node := marked (.pass (.output c!"sub" .none) [.fail]) c!"test1"
def branch2 : Node := marked (.pass (.output c!"add" .none) [.fail]) c!"test2"
def branch3 : Node :=
  marked (.inc (.output c!"sub" .none) [.inc (.output c!"add" .none) [.pass (.output c!"add" .none) [.fail]]]) c!"test3"
def branch23 : Node :=
  .mark (.inc (.output c!"add" .none) [.mark (.inc (.output c!"add" .none) [branch2, branch3]) [c!"test2", c!"test3"]]) [c!"test2", c!"test3"]
def validTree : Node := .mark (.root [branch1, branch23]) [c!"test1", c!"test2", c!"test3"]

example : Validate.full (some validTree) = some (.ok ⟨validTree⟩) := rfl

/-! ### internal/stm/transition/set_test.go:14-50 -/

example : ((addToAggregateSets (addToAggregateSets (addToAggregateSets (addToAggregateSets [] c!"x" ⟨⟨c!"foo", .in_⟩, [⟨.int 42, c!"y"⟩]⟩)
      c!"x" ⟨⟨c!"foo", .in_⟩, [⟨.int 56, c!"z"⟩]⟩) c!"y" ⟨⟨c!"foo", .in_⟩, [⟨.enum c!"Out", c!"z"⟩]⟩) c!"y" ⟨⟨c!"bar", .out⟩, [⟨.int 72, c!""⟩]⟩).map
      fun a => (a.channel, isMap a.states (if a.channel.name = c!"foo" then
        [(c!"x", [⟨.int 42, c!"y"⟩, ⟨.int 56, c!"z"⟩]), (c!"y", [⟨.enum c!"Out", c!"z"⟩])] else [(c!"y", [⟨.int 72, c!""⟩])]))) =
    [(⟨c!"foo", .in_⟩, true), (⟨c!"bar", .out⟩, true)] := by decide +kernel

/-! ### internal/stm/builder_test.go:15-102 -/

example : (match Builder.zero.build ⟨Forbidden.expand ⟨[], [], .output c!"foo" (.int 42)⟩ c!"test"⟩ with
    | some (.ok (_, m, _)) => some (GoSet.values m.tests, m.states.map fun s =>
        (s.id, s.transitionSets.length, [Outcome.inc, .fail, .pass].map s.verdict.is))
    | _ => none) =
    some ([c!"test"], [(c!"initial", 1, [false, false, true]), (c!"step0", 0, [false, true, false])]) := by decide +kernel

/-! ### internal/strmanip/strmanip_test.go:9-57 -/

example : [c!"lower_underscored", c!"UPPER_UNDERSCORED", c!"Mixed_Underscored", c!"camelCase", c!"PascalCase"].map (Strmanip.toLowerUnderscored ascii) =
    [c!"lower_underscored", c!"upper_underscored", c!"mixed_underscored", c!"camel_case", c!"pascal_case"] := by decide +kernel

example : [c!"lower_underscored", c!"UPPER_UNDERSCORED", c!"Mixed_Underscored", c!"camelCase", c!"PascalCase"].map (Strmanip.upcaseFirst ascii) =
    [c!"Lower_underscored", c!"UPPER_UNDERSCORED", c!"Mixed_Underscored", c!"CamelCase", c!"PascalCase"] := by decide +kernel

/-! ### internal/gen/gencommon/dirset_test.go:11-87 -/

example : [(⟨c!"", c!""⟩ : DirSet), ⟨c!"foo", c!""⟩, ⟨c!"foo", c!"bar"⟩].map (·.outputPath c!"src") = [c!"src", c!"src", c!"bar/src"] := by decide +kernel

example : [((⟨c!"", c!""⟩ : DirSet), c!""), (⟨c!"", c!""⟩, c!"foo"), (⟨c!"in", c!"out"⟩, c!""), (⟨c!"in", c!"out"⟩, c!"foo")].map
      (fun x => (x.1.subdir x.2).1 ++ c!"," ++ (x.1.subdir x.2).2) = [c!",", c!"foo,foo", c!"in,out", c!"in/foo,out/foo"] := by decide +kernel

/-! ### internal/gen/cpp/cpp_test.go:15-62

The second case of this test expects the directory `convert` as well.  Read as text, the code does not give it: `Process` looks only at the
channels of the suite's types (gen/config/cpp/context.go:28-36), and the suite of the test has none.  The second line below is what the code says. -/

example : CppGen.dirs ((⟨c!"in", c!"out"⟩ : DirSet).subdir c!"src") (CppConfig.Config.process ⟨.animate, [], [], false, none⟩ []) ⟨[], []⟩ = [c!"out/src/rtcg"] := by
  decide +kernel

example : CppGen.dirs ((⟨c!"in", c!"out"⟩ : DirSet).subdir c!"src") (CppConfig.Config.process ⟨.animate, [], [⟨c!"foo", c!"bar"⟩], false, none⟩ []) ⟨[], []⟩ =
    [c!"out/src/rtcg"] := by
  decide +kernel

/-! ### internal/gen/config/config_test.go:15-76 -/

example : Xml.parseConfig names configValid1 =
    .ok ⟨[⟨.animate, [], [], true, none⟩, ⟨.ros, [⟨c!"std_msgs/Float32.h", false⟩, ⟨c!"sensor_msgs/BatteryState.h", false⟩], [], false,
      some (some ⟨2, c!"bmon-${NAME}", [], [], ⟨[], []⟩, [], [], []⟩)⟩], []⟩ := by decide +kernel

example : Program.dirPath c!"testdata/valid1.xml" = cleanPath c!"testdata" := by decide +kernel

/-! ### internal/gen/config/catkin/package_test.go:11-103 -/

def minimal (name : Str) : Catkin.Package :=
  ⟨2, name, c!"0.1.0", c!"Package for " ++ name, ⟨c!"email@example.com", name ++ c!" Maintainers"⟩, c!"Proprietary", [], []⟩

example : Catkin.Package.zero.autofill = minimal c!"${NAME}" := by decide

example : Catkin.Package.zero.expand c!"foobar" = .zero ∧ (minimal c!"${NAME}").expand c!"foobar" = minimal c!"foobar" := by decide +kernel

end Rtcg.Conformance
