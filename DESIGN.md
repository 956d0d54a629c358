# DESIGN

A Lean 4 model of UoY-RoboStar/rtcg (Go, plus the C++ text templates it embeds) and machine-checked
proofs about it. Definitions are in `lean/Verif/Model`, small independent specifications in
`lean/Verif/Spec`, helper lemmas in `lean/Verif/Proofs`, and one theorem (or a few) per property, each beside
a non-vacuity example, in `lean/Verif/Props`.

## Plan per property

| id | property | what is modelled | how it is proved |
|---|---|---|---|
| C01 | Enum texts print and parse back, case-insensitively, and nothing else parses | Enums: five go-enum types as wrapped uint8 | finite case split over the 256 values plus an iff for the parser over all texts |
| C02 | Channel text round-trip, exactly | channel.go text methods over List Char | iff proved both ways from exact lemmas about split-at-dot and trimming |
| C03 | Channel/event text acceptance | UnmarshalTextWithRemainder | characterised against a declarative decomposition text = name ++ "." ++ kind ++ rest |
| C04 | Integer values survive text | strconv.ParseInt/AppendInt base 10 on Int64 | decimal-digit induction; grammar given as a separate specification |
| C05 | Value parsing is total and its classification exact | value.UnmarshalText | case analysis, unreachable error shown by totality |
| C06 | Value text round-trip, exactly | value text methods | iff from C04/C05 |
| C07 | Event text round-trip, exactly | event.go | iff from C02/C06 |
| C08 | Unmarshalling an event overwrites what was there | Event.UnmarshalText with the receiver as an explicit argument | false of the code: refutation by witness; partial theorem for texts with a value field and for fresh receivers |
| C09 | Equality of channels, values, events and traces is equality | Equals / IsPrefixOf | iff with equality / List prefix |
| C10 | Type names round-trip | rstype.go | finite case split plus parser iff |
| C11 | Type unification is a least upper bound | unify.go | order specification on types, lub proof, fold-permutation theorem |
| C12 | A written trace file reads back | CSV reader at character level + trace/read.go | a writer as specification, induction over rows and cells |
| C13 | Comment lines and blank lines do not matter | CSV reader | line-level lemma: reader on concatenation of complete lines |
| C14 | Reading is all or nothing and keeps row shape | trace/read.go | induction over records |
| C15 | Naming keeps every trace under its own name | trace.Name | pigeonhole for termination; invariants over the insert loop |
| C16 | Naming honours given names and is stable | trace.Name | first-free characterisation, fold over append |
| C17 | Expansion is the faithful tree of the trace | trace/expand.go | structural recursion; separate tree specification |
| C18 | Expansions always validate | expand + validate | via C24 |
| C19 | Collapse inverts Expand | collapse.go | induction over prefix |
| C20 | The full suite round-trip of the fuzz test | ExpandAll/CollapseAll/Name | false for named traces: witness; partial for the names erased / all-unnamed |
| C21 | Collapse accepts only expanded traces | collapse.go | false: witness; partial: exact characterisation of accepted trees |
| C22 | Walk visits every node once, parents first | walk.go with its explicit stack | loop = recursive pre-order specification |
| C23 | MarkAll tags every node and nothing else | walk.go MarkAll | via C22-style loop lemma |
| C24 | Validation accepts exactly the well-formed trees | validate package | loop over walk; iff with inductive well-formedness |
| C25 | Suite validation is all-or-nothing and order-independent | validate/suite.go, structure/map.go | association list + Perm |
| C26 | Validation never crashes | validate on decoded trees with nil pointers | false: null test panics; partial for non-nil trees |
| C27 | Building a validated test never crashes and only fails on type conflicts | stm/builder.go with stack and panics | loop invariant; error iff conflicting kinds |
| C28 | One state per non-failing node, initial first | builder | loop = recursive spec |
| C29 | State IDs are non-empty and distinct | builder | counter invariant |
| C30 | Transitions are closed | builder | counter invariant |
| C31 | Transitions are the tree's branches | builder + transition/set.go | per-node specification |
| C32 | Verdicts are the continuations' outcomes | builder + verdict | per-node specification |
| C33 | The machine's test set is complete | builder | set membership iff |
| C34 | Inferred channel types are the least upper bounds | builder + unify | lub over the non-failing nodes |
| C35 | Builders carry no state between tests | Builder as a state | Build ignores the incoming state |
| C36 | Suite building is per-test and order-independent | BuildSuite/unifyTypes | fold over permutations |
| C37 | Grouping by channel keeps channels unique | transition/set.go | induction |
| C38 | Aggregation is a complete regrouping | stm.TransitionSets | induction |
| C39 | Template transition context partitions the channels | gencommon/context.go | induction |
| C40 | Verdict queries agree with the map | verdict.go | map membership; sortedness |
| C41 | Stack and Set behave like a stack and a set | structure/stack.go,set.go | refinement to lists/finite sets |
| C42 | Factorisation finds exactly the relevant failures | factorise.go | membership iff |
| C43 | Topic names are lower_underscored | strmanip.go | scan invariant |
| C44 | UpcaseFirst touches only the first letter | strmanip.go | direct |
| C45 | Generated C++ names are unambiguous for machines built from traces | cpp/func.go | injectivity on step-IDs |
| C46 | Autofill only fills blanks | catkin/package.go | direct |
| C47 | Expanding a package replaces every placeholder | catkin/package.go | ReplaceAll specification |
| C48 | Type overrides reach exactly the typed channels | config/cpp | map induction |
| C49 | Generated files stay inside the output directory | path model + gen.go | lexical path lemmas |
| C50 | Generation creates the directories it writes into | filesystem model | false: witness; partial |
| C51 | No generated file overwrites another | path model | injectivity |
| C52 | -clean never removes the working directory or an ancestor | rtcg-gen maybeClean | false: witness; partial |
| C53 | Command lines: last argument is the optional file | cli.go | direct |
| C54 | Test suites survive JSON | JSON AST codec | structural induction |
| C55 | State machine suites survive JSON | JSON AST codec | structural induction |
| C56 | rtcg-make-stms emits a machine for every valid, consistently typed suite | make-stms pipeline | false: witness; partial |
| C57 | End to end: traces to machines | whole pipeline | composition |
| C58 | The generated test fails exactly on the forbidden trace | C++ template semantics | simulation with progress counter |
| C59 | The reported verdict tracks the progress | harness | invariant |
| C60 | An ended test stays ended | harness | false: witness; partial |
| C61 | Exit codes report the verdict | harness | invariant |
| C62 | Inputs are sent on script | harness | invariant |
| C63 | The harness never leaves the machine | harness | invariant |
| C64 | Building is repeatable | builder with labelled tree | second run lemma |
| C65 | Generation leaves its inputs alone | filesystem model, gen.go | false: witness; partial by tracking which locations are written |
| C66 | Every generated file holds what was generated for it | filesystem model, all generators | last write to each location; needs C51 |
| C67 | Generation is repeatable | filesystem model | the second run finds what the first left and writes the same |
| C68 | Programs of merged trees raise no false alarms | C++ templates' meaning for any built machine | simulation between program state and node of the tree |
| C69 | Programs of merged trees miss no failure | same | same, under a determinism condition shown to be needed |
| C70 | Verdicts of merged trees follow the path | same | same invariant |
| C71 | Inputs of merged trees follow the path | same | same invariant |
| C72 | The three programs together do the job | JSON values, all three programs, harness | composition of C57, C66 and C58 |
| C73 | Generation does not fail half way on a made suite | failures of text/template execution | every failing action is unreachable for built machines |
| C74 | Every name used is declared | names in the templates | membership, from closedness of transitions (C30) |
| C75 | Class members have distinct names | names in the templates | false: witness; exact condition |
| C76 | Verdict members have distinct names | names in the templates | false: witness; exact condition |
| C77 | Conversion names are distinct | names in the templates, case functions | false: witness; exact condition |
| C78 | ROS topics and variables are distinct | topic names (C43) | false: witness; exact condition |
| C79 | Every value fits the C++ type of its channel | C++ types of channels | false: witness; exact condition |
| C80 | Every value is written as a literal for it | literals | false: witness; exact condition against a small grammar of C++ literals |
| C81 | The Makefile builds every test | text of the Makefile | a small semantics of make applied to the generated text; false: witness |
| C82 | Build files refer only to files that are there | build files, filesystem model | false: witness; partial from C66 |
| C83 | Packages of a suite can be built together | package and target names | false: witness; exact condition |
| C84 | Bad input is refused and nothing is written | the programs with arguments, files, standard streams | case analysis over every step |
| C85 | What is written is JSON and is read back | the text layer of encoding/json | grammar of RFC 8259; induction over values |
| C86 | Only JSON is accepted | same | parser equals grammar, both ways; false as stated: witness |
| C87 | Every good traces file goes through | nesting limit of encoding/json | depth of an expansion; false: witness |
| C88 | A failed generation keeps what was there | rtcg-gen | false: witness; partial |
| C89 | Configuration files name their directory or are in it | config.go, filepath.Dir | lexical path lemmas |
| C90 | Only a dash means standard input | cli.go, rtcg-gen | false: witness; exact condition |
| C91 | The script succeeds exactly if all of it worked | rtcg.sh | composition of everything above |
| C92 | Flags are understood as described | package flag | parser equals an inductive description of command lines |
| C93 | A configuration file is read exactly as it is written | strict decoder of encoding/xml, reflection on the config types | decoder equals a grammar of documents; configuration related to the document |
| C94 | Comments, unknown elements and order make no difference | same | change relations on documents |
| C95 | Which configurations can be written | same | construction of a document for each such configuration |
| C96 | package.xml says the package | encoder of encoding/xml | written text is in the grammar and says the package |
| C97 | Every generated package.xml says the package of its test | composition | C66 with C96 |
| C98 | CMakeLists.txt builds the test | text of CMakeLists.txt | a small semantics of CMake applied to the generated text |
| C99 | CMakeLists.txt needs only what package.xml declares | both texts | exact condition; false: witness |
| C100 | The programs never crash | nil pointers in what is read | false: witnesses; every other step cannot panic |
| C101 | A JSON suite is read exactly as it says | decoding of JSON values | decoder equals a relation between JSON and suites |
| C102 | main.cpp is the text described | the templates verbatim, a model of text/template (lexer, parser, execution), the data the templates see | the templates are parsed in the kernel; execution of each tree is computed for all data, by induction over ranges; equal to a text spelled out in Spec/CppText |
| C103 | convert.h is the text described | the same | the same |
| C104 | Templates fail only where there is nothing to write | the same | execution of each tree on the failing inputs |
| C105 | The files on disk hold these texts | composition | C66 and the success of every execution, with C102-C104 |
| C106 | The generated text is C++ | the texts of main.cpp, rtcg.h and rtcg.cpp; a lexer and a parser of the C++ they use (Spec/CppLex, CppSyntax) | each piece of text lexes and parses to a tree, for all good names, by composition lemmas of lexer and parser |
| C107 | A callback of the generated text does what the machine says | an interpreter of those trees (Spec/CppRun) | symbolic execution of each method, by induction over cases and transitions; simulation relation between fields and configurations (Spec/CppHarness) |
| C108 | The generated ROS program runs the machine | the same, with ros::spin calling registered callbacks | induction over the callbacks with C107 |
| C109 | The generated animation runs the machine | the same, with words to be read | induction over the words with C107 |
| C110 | A good traces file becomes programs that find the traces | the script, the files on disk, and the interpreter on their texts | C105 and C106 for the texts on disk, C108 and C109 for the programs, C58 and C62 for machines of traces; typed words are given a meaning by the trace alone |
| C111 | How the test of a tree ends | machines built from trees, run on callbacks | the invariants of C70 extended by what the status says of the node reached, by induction over the callbacks |
| C112 | A suite of trees becomes programs that judge its tests | rtcg-make-stms, rtcg-gen, the files on disk, and the interpreter on their texts | C105 and C106 for the texts, C108 and C109 for the programs; a machine read back from JSON behaves as the machine built (its verdicts are in another order), and C68, C70, C111 for that |
| C113 | What is written does not depend on the order of maps | rtcg-read-traces and rtcg-make-stms with any order at every range over a map | permutation invariance of each step: sorting keys, C25 and C36 in any order, joins of types; then the programs as text |
| C114 | What is generated does not depend on the order of maps | rtcg-gen and rtcg.sh with any order at every range over a map; the texts of the files | simulation between runs whose operations are the same up to order and to the order inside contents; the texts line by line; C113 for the first two programs |
| C115 | convert.h makes the program whole | the files on disk with convert.h, and the interpreter on their texts | convert.h printed from a syntax tree and read back; a simulation between the program without convert.h, where default conversions belong to the libraries, and the program with it, where they are called like other functions; then C110 and C112 |
| C116 | Descriptions tell things apart | the String methods, with strconv.Quote (Model/Show) | each description can be read from the left: names end at a dot or colon, kinds and numbers at a character they cannot contain, quoted texts at a quote (escapes are a prefix code); the empty prefix is told from a name that begins with its brackets |
| C117 | A compiler sees the program meant | a preprocessor on tokens (Spec/CppPre): #include, #ifndef, #define, #endif, words replaced; two files linked | tokens of the preprocessed text are those of the text with words replaced by types (induction over the token lists of every piece), so they parse to the trees with types replaced; a simulation between the two programs (runs commute with replacing types, library names renamed); a program linked from two files that share rtcg.h acts as one; then C110, C112 and C115 |
| C118 | Conversions are right about types | C++'s rules for types on the tree of convert.h with its words replaced (Spec/CppTypes) | false of the code: refutation by witness; exactly when it holds: the body that the template writes, case by case of the channel's type, and the least type above the values that a channel carries |
| C119 | Default conversions undo each other | what the functions of convert.h return, on their syntax trees (Spec/CppValues) | the bodies that the template writes, run on any value of the channel's type; cutting a text at its first zero is idempotent |
| C120 | An ill-formed test is refused for its first fault | validate, walk.go, collapse.go | tables of faults in order of precedence (Spec/Reasons); the walk is a fold over the pre-order, the loop of Collapse follows the leftmost branch |
| C121 | Adding traces leaves other traces' programs alone | the script's two runs, to the disk | the text of main.cpp is a function of the machine's states and tests, the includes and (animations) the types of output channels (C105); names are stable (C16); machines of traces do not depend on the suite but in their types |

## Trusted base

* Lean's kernel (4.33.0), which checks every proof. No axioms of our own, no unfinished proofs, no compiled evaluation.
  `decide +kernel` is used only for closed examples and closed computations; it is kernel reduction.
* Axioms: every theorem in MANIFEST.json depends on a subset of `propext`, `Classical.choice` and `Quot.sound`, Lean's own (of the 350
  theorems at the time of writing, 251 on all three, 74 on `propext` and `Quot.sound`, 22 on `propext`, 3 on none).
* The model's fidelity to the code. It was written by reading; nothing was run. Each definition cites what it models, and its comment says
  where it simplifies. As a check on the reading, Props/Conformance evaluates the model, in the kernel, on the inputs of the repository's
  unit tests and on the inputs of its example `examples/bmon`, and compares: the model writes that example's `tests.json` and `stms.json`,
  which the programs wrote, character by character. Props/Bmon shows that this example also meets the
  hypotheses of C110 and C115. (The files are copied into Model/ExampleFiles by tools/examples.py; no theorem about the code uses them.) One expectation of a unit test is not met, and reading the code says it cannot be: see the note on cpp_test.go there.
* The specifications in `lean/Verif/Spec`, which say in a few lines each what the properties mean. Those of foreign things — RFC 4180 CSV,
  RFC 8259 JSON, XML 1.0, make, CMake, C++ literals, package flag, C++ (lexer, preprocessor, grammar, interpreter: Spec/CppLex, CppPre, CppSyntax, CppRun) — cover the part that is used.

## What is modelled

| code | model |
|---|---|
| testlang (channel, value, event, kind, outcome, node, trace text methods; testlang/rstype) | Model/Enums, Lang, Node |
| testlang walk, mark; validate; structure (stack, set, map) | Model/Base, Node |
| trace (read, name, expand, collapse), encoding/csv | Model/Csv, Trace |
| stm (builder, state, suite, stm), stm/transition, stm/verdict | Model/Stm |
| testlang factorise; gencommon; strmanip; config/cpp; config/catkin | Model/Gen |
| path/filepath, the file system, gen.go, gen/cpp, gen/catkin, gen/makefile, rtcg-gen's clean | Model/Fs |
| encoding/json on values, all json tags, MarshalJSON/UnmarshalJSON, nil pointers in what is read | Model/Json |
| encoding/json on text | Model/JsonText |
| encoding/xml, decoding of configurations, encoding of package.xml | Model/Xml |
| the C++ templates and the runtime (rtcg.cpp, rtcg.h): what the generated program does (proved of the generated text in C107-C109) | Model/Harness |
| the templates: names, types and literals they write, when execution fails; the texts of Makefile and CMakeLists.txt | Model/Templates |
| gen/templating, text/template (the syntax and actions that are used), the template files and the prelude verbatim, the data and functions that the templates use | Model/TextTemplate, TemplateFiles (written by tools/templates.py), TemplateData |
| cmd/*/main.go, internal/cli, package flag, rtcg.sh | Model/Programs |
| the order in which maps are visited | Model/Order |

Not modelled:

* C++ types and libraries: main.cpp, rtcg.h and rtcg.cpp are lexed, parsed and interpreted (C106-C112), and so is convert.h (C115). In these
  properties directives are passed over (so the names of value and message types stand for themselves); C117 shows that following them, as
  the preprocessor does (#include, #ifndef, #define and #endif; files of libraries define nothing), makes no difference. Expressions are not typed
  beforehand (but those of convert.h are, in C118), numbers are unbounded, and what functions of libraries (and the user's conversions) do is a parameter, as is which there are and
  how many arguments they take. `wrong` stands for what does not compile or is not defined; the theorems show that it is not reached.
* The tables of non-ASCII letters: XML name characters (`XmlNames`) and Unicode case (`Unicode`, with `AsciiOK` where needed) are
  parameters.
* Links, permissions, full disks and other processes; output errors; memory and stack limits.
* A JSON field given twice: the second is read into a fresh slice or map, where encoding/json reuses what is there. The theorem on reading
  (C101) has the hypothesis that no field is given twice.
* Error messages, log lines and dates; test code; the build of rtcg itself.
* Real time: in the harness, timers are events that come when they come.

## Properties that are false of the code

Each has a theorem with a witness, named `..._false` unless given here: C08 (an event text without value keeps the old value), C20 (names
are lost by collapsing, `C20_named_trace_loses_name`), C21 (other trees collapse too, `C21_collapse_accepts_more`), C26 and C100 (null
pointers crash, `C26_null_test_crashes`), C50 (the directory of
convert.h is not made), C52 (-clean removes ancestors), C56 (events without value), C60 (an ended test starts again), C62 (an early
acknowledgement skips an input), C65 (conversion code truncated), C75–C78 (names collide), C79, C80 (values that do not fit or are not
quoted), C81, C98 (test names with blanks), C82 (convert.cpp is named but not there), C83 (targets collide), C86, C87 (nesting limit,
trailing text), C88 (-clean before reading the configuration), C90 (`./-`), C91 (a flag as configuration), C99 (undeclared dependencies),
C118 (default conversions that do not compile).
The partial theorem beside each says where it does hold, in most cases exactly.

## Modelling conventions

* Go strings and byte slices holding text are `List Char` (valid UTF-8 assumed).
* `error` results are values of an error type recording the innermost sentinel; the `fmt.Errorf` wrapping
  text is dropped. A run-time panic is a separate failure value, so "never panics" is a statement.
* Methods with pointer receivers return the new receiver; where the old content matters it is an argument.
* Go maps are association lists in some iteration order; theorems that say "whatever the order" quantify
  over permutations.
* Loops with explicit stacks are modelled as loops over that stack (not as the recursion they stand for);
  the recursion is the specification.
* `encoding/csv`, `strconv`, `strings`, `path/filepath` functions used are modelled from their documented
  behaviour and source (Go 1.20); so are `encoding/json`, `encoding/xml`, `text/template` and `flag`.
* The C++ harness is the semantics of the code emitted by the templates, for a given machine.
* Loops that are not structurally recursive carry fuel; a theorem shows that the fuel given suffices, so that its exhaustion (a panic in
  the model) never happens.
* Nil pointers: a nil `*Node` in a suite is `none`; nil machines, states and verdicts in a suite that was read are reported by
  `Json.missing`, next to the value.
* Keys of JSON objects match field names as encoding/json does it: up to case, with the long s and the Kelvin sign.
