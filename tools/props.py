import json
P=[]
def p(title, statement, quantifier, why, *anchors):
    P.append(dict(id="C%02d"%(len(P)+1), title=title, statement=statement, quantifier=quantifier, why_tests_cant=why, anchors=list(anchors)))

p("Enum texts print and parse back, case-insensitively, and nothing else parses",
  "For the channel kind, the test outcome, the C++ variant, the type kind and the arithmetic domain: the text printed for a declared member parses back to that member; any case variant of a member's text parses to it; any other text is rejected; and a numeric value outside the declared members prints as Name(N), which is rejected on parse.",
  "every numeric enum value 0..255 and every text", "the set of texts and their case variants (and Unicode case mappings) is unbounded",
  "internal/testlang/channel/kind_enum.go:ParseKind,Kind.String", "internal/testlang/outcome_enum.go:ParseOutcome,Outcome.String", "internal/gen/config/cpp/variant_enum.go:ParseVariant", "internal/testlang/rstype/kind_enum.go", "internal/testlang/rstype/arithmos_enum.go")
p("Channel text round-trip, exactly",
  "Marshalling a channel to text and unmarshalling the text gives back the same channel exactly when the name is non-empty, has no surrounding white space and no '.', and the kind is one of in/out/call.",
  "every channel name and every numeric kind", "names are arbitrary strings; tests try two",
  "internal/testlang/channel/channel.go:MarshalText,UnmarshalText,UnmarshalTextWithRemainder")
p("Channel/event text acceptance",
  "A text is accepted as a channel exactly when its part before the first '.' exists and the next '.'-delimited part, stripped of white space, names a kind ignoring case; the channel name is the stripped first part; everything after the second '.' (dots included) is the value text; a text with no '.' is rejected with the field-count error.",
  "every text", "unbounded input space", "internal/testlang/channel/channel.go:UnmarshalTextWithRemainder")
p("Integer values survive text",
  "Every 64-bit integer value prints as a decimal text that parses back to the same integer value; a text parses as an integer value exactly when it is an optional sign followed by one or more decimal digits denoting a number in the signed 64-bit range, and then the parsed number is the denoted one.",
  "all 2^64 integers and every text", "2^64 values and unbounded texts", "internal/testlang/value/int.go:MarshalText,UnmarshalText,StringValue")
p("Value parsing is total and its classification exact",
  "Parsing a value text never fails: the surrounding white space is dropped and the rest becomes an integer value when it parses as one, and otherwise (empty text and out-of-range numbers included) an enumeration constant with exactly that text. The 'unsupported value type' error is unreachable.",
  "every text", "unbounded input space; the unreachable error branch cannot be tested", "internal/testlang/value/value.go:UnmarshalText")
p("Value text round-trip, exactly",
  "Marshalling a value and unmarshalling the text gives back the same value exactly when the value is an integer, or an enumeration constant with no surrounding white space that does not itself read as a 64-bit integer; marshalling an absent value is an error.",
  "every value", "enumeration constants are arbitrary strings", "internal/testlang/value/value.go:MarshalText,UnmarshalText", "internal/testlang/value/enum.go")
p("Event text round-trip, exactly",
  "Marshalling an event and unmarshalling into a fresh event gives back the same event exactly when its channel round-trips and its value is absent or round-trips. In particular an event accepted with an empty channel name is printed as a text that no longer parses.",
  "every event", "channels and values are arbitrary strings", "internal/testlang/event.go:MarshalText,UnmarshalText")
p("Unmarshalling an event overwrites what was there",
  "The event obtained by unmarshalling a text does not depend on what the receiving event held before.",
  "every text and every prior content of the receiver", "depends on the history of the receiver", "internal/testlang/event.go:UnmarshalText")
p("Equality of channels, values, events and traces is equality",
  "The Equals methods of channels, values, events and traces return true exactly when the two operands are the same, and IsPrefixOf is true exactly when one trace is an initial segment of the other; hence they are equivalence relations (resp. a partial order).",
  "every pair of channels, values, events, traces of any length", "unbounded pairs and lengths", "internal/testlang/channel/channel.go:Equals", "internal/testlang/value/value.go:Equals", "internal/testlang/event.go:Equals", "internal/trace/trace.go:Equals,IsPrefixOf")
p("Type names round-trip",
  "Every type that can be printed ((), nat, int, real, enum) prints to a text that reads back as that type; reading ignores case and accepts only those five names; marshalling fails exactly for arithmetic types with an unknown domain or out-of-range kinds.",
  "every type structure and every text", "unbounded texts, 2^16 structures", "internal/testlang/rstype/rstype.go:MarshalText,UnmarshalText,tryString")
p("Type unification is a least upper bound",
  "Unifying two types fails exactly when they have different kinds, otherwise yields their least upper bound in nat < int < real (and (), enum only with themselves); absent types are neutral; the operation is commutative, associative (errors included) and idempotent on well-formed types, so folding it over any arrangement of the same types gives the same answer.",
  "all types, all finite collections and arrangements of types", "all arrangements of unbounded collections", "internal/testlang/rstype/unify.go:Unify", "internal/testlang/rstype/arithmos.go:MaxDomain")
p("A written trace file reads back",
  "Writing any list of named or unnamed forbidden traces in the documented CSV format (one line per trace, cells separated by commas with any leading spaces, optional 'name:' prefix on the first cell) and reading it yields exactly that list, provided names and event texts avoid the format's own delimiters.",
  "every list of forbidden traces of every length", "unbounded files", "internal/trace/read.go:Read,parseRow,tryParseName")
p("Comment lines and blank lines do not matter",
  "Inserting a line starting with '#', or an empty line, between the complete lines of a trace file does not change what is read (traces or error).",
  "every file without quoted cells, every insertion point, every comment text", "unbounded files and insertion points", "internal/trace/read.go:Read,newReader")
p("Reading is all or nothing and keeps row shape",
  "If reading succeeds, there is one trace per CSV record in order; a record with n cells gives a prefix of n-1 events and one forbidden event, each the parse of its cell; if any record is malformed reading fails and returns no traces; the 'needs one event' error is unreachable from files.",
  "every input text", "unbounded files", "internal/trace/read.go:Read,parseRow,selectEvent")
p("Naming keeps every trace under its own name",
  "Name always terminates, and assigns the traces pairwise distinct non-empty names: the resulting map has exactly as many entries as there are traces and holds each input trace, unchanged, under its assigned name.",
  "every list of traces, including adversarial names such as foo0", "unbounded lists and name collisions; termination", "internal/trace/trace.go:Name,insertName,synthesiseName")
p("Naming honours given names and is stable",
  "Each trace is stored under the first free candidate: for an unnamed trace (or one named 'test') test0, test1, ...; otherwise its own name, then name0, name1, ...; and appending more traces never changes the names of the earlier ones.",
  "every list of traces and every extension of it", "depends on the whole history of earlier names", "internal/trace/trace.go:Name,insertName,synthesiseName")
p("Expansion is the faithful tree of the trace",
  "Expanding a forbidden trace under a name gives a single-branch tree: an outcome-less, event-less root, then one inconclusive node per prefix event in order, one passing node with the forbidden event, then a failing leaf; every node is tagged with exactly that name.",
  "every trace of every length and every name", "unbounded prefixes", "internal/trace/expand.go:Expand,ExpandAll", "internal/testlang/node.go:TestPoint,Inc,Root,Mark")
p("Expansions always validate",
  "Full validation accepts the expansion of every forbidden trace, so rtcg-make-stms never rejects the structure of a suite produced from traces.",
  "every trace, name and suite", "unbounded traces", "internal/trace/expand.go:Expand", "internal/validate/validate.go:Full", "internal/validate/suite.go:FullSuite")
p("Collapse inverts Expand",
  "Collapsing the expansion of a forbidden trace succeeds and returns the same prefix and forbidden event (the name is carried by the suite key, not by the result); the same holds entry by entry for whole suites.",
  "every trace, name and suite", "unbounded traces and suites", "internal/trace/collapse.go:Collapse,CollapseAll", "internal/trace/expand.go:Expand,ExpandAll")
p("The full suite round-trip of the fuzz test",
  "For every list of traces, CollapseAll(ExpandAll(Name(traces))) equals Name(traces), as the project's fuzz test asserts.",
  "every list of traces", "the fuzz test only samples; it never seeds a named trace", "internal/trace/expand_test.go:FuzzExpandAllCollapseAllRoundTrip", "internal/trace/collapse.go:Collapse")
p("Collapse accepts only expanded traces",
  "If Collapse succeeds on a tree then expanding its result gives back that tree (up to test tags and node IDs).",
  "every test tree", "unbounded trees", "internal/trace/collapse.go:Collapse,collapseNode")
p("Walk visits every node once, parents first",
  "Walk applies the function to every node of the tree exactly once in pre-order (children left to right), and stops at the first error, returning that error.",
  "every tree and every visitor", "unbounded trees and visitor functions", "internal/testlang/walk.go:Walk")
p("MarkAll tags every node and nothing else",
  "After MarkAll every node of the tree carries exactly the given tests and no other field or the shape has changed.",
  "every tree and tag list", "unbounded trees", "internal/testlang/walk.go:MarkAll")
p("Validation accepts exactly the well-formed trees",
  "Full validation succeeds exactly when the root has no event and no outcome and at least one test, and every other node has at least one test and is a leaf failing node without event, or a passing node with an event and exactly one continuation, or an inconclusive node with an event and at least one continuation; on success the validated test is the same tree.",
  "every tree", "unbounded trees", "internal/validate/validate.go:Full,OneNext", "internal/validate/node.go:Root,Node,failNode,passNode,nonFailNode")
p("Suite validation is all-or-nothing and order-independent",
  "FullSuite succeeds exactly when every test validates, and then contains exactly the same tests under the same names, whatever order the map is visited in.",
  "every suite and every iteration order", "Go randomises map iteration", "internal/validate/suite.go:FullSuite", "internal/structure/map.go:TryOverMapValues")
p("Validation never crashes",
  "Full validation of a decoded suite returns a value or an error and never crashes.",
  "every suite that JSON decoding can produce, null entries included", "unbounded inputs", "internal/validate/validate.go:Full", "internal/validate/node.go:Root", "internal/testlang/testlang.go:ReadSuite")
p("Building a validated test never crashes and only fails on type conflicts",
  "Build on a validated test terminates without panicking; it returns an error exactly when some channel name carries values of two different type kinds in the non-failing nodes.",
  "every validated tree", "unbounded trees", "internal/stm/builder.go:Build,processNode,inferEventType", "internal/stm/state.go:addTransitionToNode")
p("One state per non-failing node, initial first",
  "The built machine has exactly one state per non-failing node of the tree (the root included); the first state is the root's, with ID 'initial', and InitialState returns it.",
  "every validated tree that builds", "unbounded trees", "internal/stm/builder.go:Build,processNode", "internal/stm/stm.go:InitialState")
p("State IDs are non-empty and distinct",
  "All states of a built machine have non-empty, pairwise distinct IDs (holds for trees without caller-assigned IDs, as produced from traces).",
  "every validated tree", "unbounded trees, and collisions with caller-assigned IDs", "internal/stm/builder.go:ensureNodeID,Build")
p("Transitions are closed",
  "Every transition of a built machine targets the ID of a state of the machine, and (without caller-assigned IDs) every non-initial state is the target of exactly one transition while the initial state is the target of none.",
  "every validated tree that builds", "unbounded trees", "internal/stm/builder.go:processNode,pushNext,buildState", "internal/stm/state.go:addTransitionToNode")
p("Transitions are the tree's branches",
  "The state built for a node has one transition per non-failing continuation, carrying that continuation's channel and value and leading to its state, grouped by channel in order of first use and keeping the branch order inside each group; there are no others.",
  "every node of every validated tree", "unbounded branching", "internal/stm/builder.go:buildState", "internal/stm/state.go:AddOutgoingNode,addTransitionToNode", "internal/stm/transition/set.go:AddToSets")
p("Verdicts are the continuations' outcomes",
  "The verdict of a state maps a test name to the outcome of the last continuation of its node tagged with that test, and has no other entries.",
  "every node of every validated tree", "unbounded branching and tags", "internal/stm/state.go:addVerdictsFromNode", "internal/stm/verdict/verdict.go:Add")
p("The machine's test set is complete",
  "The Tests set of a built machine is exactly the set of tests tagging non-root nodes; every test mentioned in any state's verdict is in it.",
  "every validated tree", "unbounded trees", "internal/stm/builder.go:buildState", "internal/structure/set.go:Add")
p("Inferred channel types are the least upper bounds",
  "After a successful Build the type recorded for a channel name is the least upper bound of the types of the values carried on it by the non-failing nodes (no value counts as the empty type), and channels that do not occur have no entry.",
  "every validated tree that builds", "unbounded trees and value combinations", "internal/stm/builder.go:inferNodeEventType,inferEventType", "internal/testlang/rstype/unify.go:Unify")
p("Builders carry no state between tests",
  "The result of Build does not depend on what the same Builder built, or failed to build, before.",
  "every prior builder state/history and every tree", "unbounded histories", "internal/stm/builder.go:Build")
p("Suite building is per-test and order-independent",
  "BuildSuite succeeds exactly when every test builds and no channel has two type kinds across the suite; then each test has its own machine, the suite types are the least upper bounds over all tests, and neither success nor any result depends on map iteration order.",
  "every validated suite and every iteration order", "Go randomises map iteration", "internal/stm/builder.go:BuildSuite,BuildMany,unifyTypes")
p("Grouping by channel keeps channels unique",
  "Adding transitions one by one yields at most one set per channel, in order of first use, each holding exactly the transitions added for that channel in the order added.",
  "every sequence of additions", "unbounded histories", "internal/stm/transition/set.go:AddToSets")
p("Aggregation is a complete regrouping",
  "The aggregate transition sets of a machine have one entry per channel used anywhere, and the transition list stored for channel c and state s is exactly the concatenation of the transitions on c of the states with ID s.",
  "every machine", "unbounded machines", "internal/stm/stm.go:TransitionSets", "internal/stm/transition/set.go:AddToAggregateSets")
p("Template transition context partitions the channels",
  "In the context given to templates, In and Out partition the aggregate sets into input channels and all others (calls included), HasIn says whether In is non-empty, InMerged maps each state to all its input transitions, and FirstStateHasIn holds exactly when the first state has an input transition set.",
  "every machine", "unbounded machines", "internal/gen/gencommon/context.go:makeTransitions,populateFilters,addInput,firstStateHasIn")
p("Verdict queries agree with the map",
  "Is(o) holds exactly when some test has outcome o; SetOf(o) is exactly the set of those tests; Tests lists every covered test once in ascending order; all independent of map iteration order.",
  "every verdict map and iteration order", "unbounded maps", "internal/stm/verdict/verdict.go:Is,SetOf,Tests,Add")
p("Stack and Set behave like a stack and a set",
  "Any sequence of Push/Pop/Clear/IsEmpty behaves as a LIFO stack (popping an empty stack is the only panic); any sequence of Add keeps Values duplicate-free with exactly the added elements.",
  "every operation sequence", "unbounded histories", "internal/structure/stack.go", "internal/structure/set.go")
p("Factorisation finds exactly the relevant failures",
  "Failures(tests, after) lists exactly the tests whose prefix equals after, each once, with its forbidden event; SpineNodes puts each input failure on its own spine copy and all others on one final spine, losing and duplicating none.",
  "every suite, trace and iteration order", "unbounded suites", "internal/factorise/factorise.go:SpineNodes,Failures,lastEvent")
p("Topic names are lower_underscored",
  "ToLowerUnderscored inserts '_' exactly before each upper-case letter that follows a lower-case one and lower-cases everything else; for ASCII identifiers its output has no upper-case letter and it is idempotent.",
  "every identifier", "unbounded strings", "internal/strmanip/strmanip.go:ToLowerUnderscored,format,addChar,markSplit")
p("UpcaseFirst touches only the first letter",
  "UpcaseFirst upper-cases the first character, leaves the rest alone and is idempotent whenever upper-casing that character is.",
  "every identifier", "unbounded strings", "internal/strmanip/strmanip.go:UpcaseFirst", "internal/gen/cpp/func.go")
p("Generated C++ names are unambiguous for machines built from traces",
  "For a machine built from a tree without caller-assigned IDs the C++ state enum members, and the state entry functions, are pairwise distinct.",
  "every validated tree without caller-assigned IDs", "unbounded machines", "internal/gen/cpp/func.go:StateEnum,StateEntry,EnumField")
p("Autofill only fills blanks",
  "Autofill sets the format to 2, leaves every non-empty field and all dependency lists unchanged, leaves no name/description/maintainer/license/version field empty, and is idempotent.",
  "every package", "unbounded field contents", "internal/gen/config/catkin/package.go:Autofill,autofillOne")
p("Expanding a package replaces every placeholder",
  "Expand replaces every occurrence of ${NAME} in name, description, maintainer and license by the test name and touches nothing else; afterwards no placeholder remains provided the test name cannot itself complete one.",
  "every package and test name", "unbounded templates", "internal/gen/config/catkin/package.go:Expand,expandOne", "internal/gen/catkin/catkin.go:generateTest")
p("Type overrides reach exactly the typed channels",
  "The C++ context has an entry for exactly the channels with an inferred type, with that type and the last configured override for the channel (none if unconfigured); HasConversion holds exactly when some typed channel is configured; independent of map iteration order.",
  "every configuration, type map and iteration order", "unbounded configurations", "internal/gen/config/cpp/context.go:Process", "internal/gen/config/cpp/cpp.go:ChannelMap")
p("Generated files stay inside the output directory",
  "Every directory made and file written by rtcg-gen lies inside the chosen output directory (for test names that are plain path components).",
  "every configuration, suite and output directory", "unbounded names and paths", "internal/gen/gencommon/dirset.go:Subdir,OutputPath", "internal/gen/cpp/cpp.go:Dirs", "internal/gen/gen.go:mkdirs,runSubgens")
p("Generation creates the directories it writes into",
  "Starting from an empty output location, generation never fails for want of a directory: the parent of every file written has been made beforehand.",
  "every configuration and suite", "unbounded configurations; depends on filesystem state", "internal/gen/cpp/cpp.go:Dirs,generateCommon", "internal/gen/cpp/template.go:makeTemplatedGenerators", "internal/gen/gen.go:Generate")
p("No generated file overwrites another",
  "With at most one C++ configuration per variant, all files written in one generation have pairwise distinct paths.",
  "every configuration and suite with plain test names", "unbounded suites", "internal/gen/gen.go:initCpp", "internal/gen/cpp/cpp.go:Generate", "internal/gen/catkin/catkin.go:Generate", "internal/gen/makefile/makefile.go:Generate")
p("-clean never removes the working directory or an ancestor",
  "With -clean, rtcg-gen refuses to remove the current directory or a directory containing it.",
  "every -output argument", "unbounded paths; destructive to test", "cmd/rtcg-gen/main.go:maybeClean,run")
p("Command lines: last argument is the optional file",
  "ParseFileArgument returns the last argument when all are given, '-' when exactly the last is missing, and the bad-arguments error for every other count, so no tool indexes out of range.",
  "every argument list and expected count", "unbounded argument lists", "internal/cli/cli.go:ParseFileArgument", "cmd/rtcg-gen/main.go:parseArgs")
p("Test suites survive JSON",
  "Writing a test suite whose events round-trip through text as JSON and reading it back gives the same suite.",
  "every suite of trees", "unbounded trees", "internal/testlang/testlang.go:ReadSuite,Write", "internal/testlang/node.go:Node", "internal/serial/serial.go")
p("State machine suites survive JSON",
  "Writing a state machine suite whose transition values and channels round-trip as JSON and reading it back gives the same suite.",
  "every state machine suite", "unbounded machines", "internal/stm/suite.go:ReadSuite,Write", "internal/stm/stm.go", "internal/stm/verdict/verdict.go:MarshalJSON,UnmarshalJSON", "internal/structure/set.go:MarshalJSON,UnmarshalJSON")
p("rtcg-make-stms emits a machine for every valid, consistently typed suite",
  "For every valid test suite with consistent types, rtcg-make-stms writes the state machines.",
  "every valid suite, including events that carry no value", "unbounded suites", "cmd/rtcg-make-stms/main.go:run", "internal/stm/transition/transition.go:Transition", "internal/testlang/value/value.go:MarshalText")
p("End to end: traces to machines",
  "For every trace file whose events carry round-tripping values with consistent types, the read-traces | make-stms pipeline (through JSON) succeeds and the machine of each test is the linear machine of its trace: states initial, step0, step1, ..., one transition per event in order, verdict inc before the last step, pass on the step before the forbidden event, fail after it.",
  "every list of traces", "unbounded files; crosses two processes", "rtcg.sh", "cmd/rtcg-read-traces/main.go:run", "cmd/rtcg-make-stms/main.go:run")
p("The generated test fails exactly on the forbidden trace",
  "A generated test for a forbidden trace, driven by any sequence of callbacks (outputs, input acknowledgements, start delay, timeout) and stopped when it ends, ends with status FAIL exactly when the observed events start with the whole prefix followed by the forbidden event.",
  "every trace and every callback sequence", "unbounded schedules of callbacks", "internal/gen/cpp/embed/templates/base/stm.cpp.tmpl", "internal/gen/cpp/embed/templates/base/out_callback.cpp.tmpl", "internal/gen/cpp/embed/templates/base/in_callback.cpp.tmpl", "internal/gen/cpp/embed/templates/base/state_entry.cpp.tmpl")
p("The reported verdict tracks the progress",
  "While running a generated test, the recorded verdict is inconclusive while part of the prefix is still to come, pass when only the forbidden event is left, fail once it has occurred, and it never goes back.",
  "every trace and every callback sequence", "unbounded schedules", "internal/gen/cpp/embed/templates/base/verdict.cpp.tmpl", "internal/gen/cpp/embed/templates/base/state_entry.cpp.tmpl")
p("An ended test stays ended",
  "Once a generated test has ended, no later callback changes its status.",
  "every machine and every callback sequence", "unbounded schedules; late callbacks are races", "internal/gen/cpp/embed/templates/base/stm.cpp.tmpl:end,timeoutCallback", "internal/gen/cpp/embed/templates/base/state_entry.cpp.tmpl")
p("Exit codes report the verdict",
  "The test program exits with 1 exactly when the forbidden behaviour occurred, 2 exactly on an internal error, 0 otherwise.",
  "every run", "all statuses and runs", "internal/gen/cpp/embed/prelude/rtcg.cpp:exitCode", "internal/gen/cpp/embed/templates/base/entry.cpp.tmpl")
p("Inputs are sent on script",
  "A generated test for a trace sends the SUT exactly the inputs of the trace reached so far, in order, each once, and never sends the first input before the start delay when the test starts with an input.",
  "every trace and callback sequence", "unbounded schedules", "internal/gen/cpp/embed/templates/base/state_entry.cpp.tmpl", "internal/stm/state.go:In,HasIn")
p("The harness never leaves the machine",
  "For every machine built from a validated tree without caller-assigned IDs, in every callback sequence the harness only ever enters states of the machine and records verdicts only for tests it declares; it reports an internal error only for an input acknowledgement in a state without inputs.",
  "every validated tree and every callback sequence", "unbounded machines and schedules", "internal/gen/cpp/embed/templates/base/stm.cpp.tmpl", "internal/gen/gencommon/context.go")
p("Building is repeatable",
  "Building the same test again (Build assigns IDs to the tree it is given) yields the identical machine.",
  "every validated tree", "depends on the mutation history of the tree", "internal/stm/builder.go:Build,ensureNodeID")
p("Generation leaves its inputs alone",
  "Running rtcg-gen never changes the user's own conversion code in the configuration directory, whatever output directory is chosen.",
  "every configuration, suite, output directory and initial file system", "any layout of directories, including overlapping ones", "internal/gen/cpp/copy.go:copyLocalFile,writeFile", "cmd/rtcg-gen/main.go:run")
p("Every generated file holds what was generated for it",
  "After a successful generation each test's main.cpp is the one made from that test's machine, each package file the one made for that test, in the directory of its variant; the conversion code is a copy of the user's; all other files are as before.",
  "every configuration, suite and initial file system", "unbounded suites, any map iteration order", "internal/gen/cpp/cpp.go:Generate", "internal/gen/catkin/catkin.go:Generate", "internal/gen/makefile/makefile.go:Generate")
p("Generation is repeatable",
  "Generating again over the result of a successful generation, with nothing changed in between, succeeds and changes nothing.",
  "every configuration, suite and initial file system", "a history of two runs on an arbitrary file system", "internal/gen/gen.go:Generate", "internal/gen/templating/templating.go:CreateFile")

T1="internal/gen/cpp/embed/templates/base/stm.cpp.tmpl"
T2="internal/gen/cpp/embed/templates/base/state_entry.cpp.tmpl"
p("Programs of merged trees raise no false alarms","For every validated test tree (not only single traces), the generated program, driven by any callbacks, ends with FAIL only if what it saw starts with a path of the tree to a node where some test fails.","every validated tree and every callback sequence","unbounded trees and schedules",T1,T2,"internal/stm/builder.go:Build")
p("Programs of merged trees miss no failure","If no node of a validated tree has two continuations that look alike, the generated program ends with FAIL on every schedule that starts with a path of the tree to a node where some test fails.","every such tree and every callback sequence","unbounded trees and schedules",T1,T2,"internal/stm/builder.go:Build")
p("Verdicts of merged trees follow the path","The verdict a generated program reports for each test is the one given by the deepest node, along the path of the tree that was seen, that says anything about that test.","every validated tree and every callback sequence with the start delay over first","unbounded trees and schedules","internal/gen/cpp/embed/templates/base/verdict.cpp.tmpl",T2,"internal/stm/builder.go:processOutgoingNode")
p("Inputs of merged trees follow the path","A generated program has sent exactly the inputs offered by the nodes along the path of the tree that was seen, in order and each once.","every validated tree without look-alike continuations, every callback sequence with the start delay over first","unbounded trees and schedules",T2,"internal/stm/state.go:In,HasIn")
p("The three programs together do the job","Take any well-formed traces file: rtcg-read-traces, rtcg-make-stms and rtcg-gen, run one after the other on each other's output, give for each trace a program that ends with FAIL (exit code 1) exactly when the events seen start with the forbidden trace, and whose reported verdict is then fail.","every traces file, configuration, file system and callback sequence, every map iteration order","the composition of three programs, on unbounded inputs and schedules","cmd/rtcg-read-traces/main.go","cmd/rtcg-make-stms/main.go","cmd/rtcg-gen/main.go",T1)


TM="internal/gen/cpp/embed/templates/"
p("Generation does not fail half way on a made suite","On any suite of state machines made by rtcg-make-stms, every template executes without error (no missing type, no state without a successor, no machine without states), so generation fails only for reasons of the file system.","every validated suite, configuration, variant and initial file system","unbounded suites and every map order; the failure is in template execution","internal/gen/templating/set.go",TM+"base/convert/convert_base.h.tmpl",TM+"base/in_callback.cpp.tmpl","internal/stm/stm.go:InitialState")
p("Every name used is declared","In a generated program every state entry function called, verdict setter called, state named in a case label, and conversion function or type used is declared.","every validated suite, machine, configuration and variant","unbounded machines and arbitrary names",T1,T2,TM+"base/state_meta.cpp.tmpl",TM+"base/verdict.cpp.tmpl",TM+"base/convert/convert_base.h.tmpl")
p("Class members have distinct names","The members declared in a generated state machine class (callbacks, entry functions, fields) have different names.","every validated suite without caller-assigned IDs, every machine, both variants","arbitrary channel names and unbounded state numbers",T1,"internal/gen/cpp/func.go:CallbackName,StateEntry")
p("Verdict members have distinct names","The members declared in the generated verdict class (one setter and one field per test) have different names.","every validated suite and machine","arbitrary test names",TM+"base/verdict.cpp.tmpl","internal/stm/stm.go:Tests")
p("Conversion names are distinct","The macros and functions declared in convert.h for different channels have different names.","every configuration and every map of channel types","arbitrary channel names",TM+"base/convert/convert_base.h.tmpl","internal/strmanip/strmanip.go:UpcaseFirst")
p("ROS topics and variables are distinct","A generated ROS program uses different topics, and different variables, for different channels.","every machine","arbitrary channel names",TM+"ros/main.cpp.tmpl","internal/strmanip/strmanip.go:ToLowerUnderscored")
p("Every value fits the C++ type of its channel","The C++ type chosen for a channel can hold every value that the suite has on the channel.","every validated suite, every transition of every machine","unbounded suites; the type is merged over all tests","internal/gen/cpp/func.go:StdType","internal/stm/builder.go:unifyTypes")
p("Every value is written as a literal for it","The C++ literal written for a value stands for exactly that value.","every value","infinitely many values","internal/gen/cpp/func.go:Value","internal/testlang/value/value.go")

TMK="internal/gen/makefile/embed/templates/Makefile.tmpl"
p("The Makefile builds every test","The generated Makefile is understood by make as intended: its default target makes the output directory and then every test; each test is compiled from exactly its own main.cpp, the runtime, and the conversion code if there are conversions; no target is made twice.","every set of test names and every configuration","unbounded suites and arbitrary test names; make's reading of the text is involved",TMK,"internal/gen/makefile/makefile.go:Generate")
p("Build files refer only to files that are there","After a successful generation every source file and header that the Makefile, the CMake files and the generated programs refer to is found where they look for it.","every configuration, suite and initial file system","unbounded suites, path arithmetic across four generators",TMK,"internal/gen/catkin/embed/templates/CMakeLists.txt.tmpl",TM+"base/includes.cpp.tmpl","internal/gen/cpp/cpp.go:Generate,Dirs")
p("Packages of a suite can be built together","The catkin packages of a suite have different names and define different build targets.","every suite and every package configuration","arbitrary names and placeholders","internal/gen/catkin/catkin.go:Generate","internal/gen/config/catkin/package.go:Expand","internal/gen/catkin/embed/templates/CMakeLists.txt.tmpl")

CM="cmd/rtcg-make-stms/main.go:run"
p("Bad input is refused and nothing is written","rtcg-read-traces and rtcg-make-stms write to standard output, and exit with 0, exactly when their argument names a readable input that is a good traces file or valid suite (whose result can be written, C87); otherwise they write nothing at all. rtcg-gen exits with 0 only if arguments, suite and configuration are all good.","every command line, file system and standard input","unbounded inputs; any of the steps may fail","cmd/rtcg-read-traces/main.go:run",CM,"cmd/rtcg-gen/main.go:run","internal/cli/cli.go")

SJ="internal/serial/serial.go:ReadJSON,WriteJSON"
p("What is written is JSON and is read back","Everything the programs write is JSON by RFC 8259, standing for the suite they made, and reading it back (whatever comes after it) gives that same value: no character of a name or value is lost or changed by quoting.","every JSON value, and every output of the programs","unbounded values, all characters",SJ)
p("Only JSON is accepted","A program reading a suite accepts its input exactly if it is one JSON text (RFC 8259) with white space around it, and takes it for the one value it stands for.","every text","infinitely many texts",SJ)
p("Every good traces file goes through","rtcg-read-traces succeeds on every traces file that it can read, however long its traces.","every traces file","unbounded trace lengths; the failure is in a limit on the nesting of the output","cmd/rtcg-read-traces/main.go:run",SJ,"internal/trace/expand.go:Expand")
p("A failed generation keeps what was there","If rtcg-gen fails because of its arguments, its suite or its configuration, it has changed no file.","every command line, file system and standard input","any of the steps may fail, from any state of the file system","cmd/rtcg-gen/main.go:run","internal/gen/config/config.go:Load")
p("Configuration files name their directory or are in it","Conversion code is looked for in the directory the configuration names, or if it names none, in the directory the configuration file is in, whichever way the path to it is written.","every path, working directory and file system","arbitrary paths with dots and slashes","internal/gen/config/config.go:Load")
p("Only a dash means standard input","A program reads standard input exactly if its input argument is - or left out, and otherwise the file of that name.","every command line, file system and standard input","arbitrary paths","internal/cli/cli.go:OpenFileOrStdin","cmd/rtcg-gen/main.go:run")
p("The script succeeds exactly if all of it worked","rtcg.sh ends with exit code 0 exactly if all three programs succeeded, each on the output of the one before; when traces or suite are refused, no file is changed; and on a good traces file it does succeed and each program generated fails exactly on its forbidden trace.","every argument list, file system, standard input and traces file, every callback sequence","three programs joined by pipes, of which only the last one's exit code is seen","rtcg.sh","cmd/rtcg-read-traces/main.go","cmd/rtcg-make-stms/main.go","cmd/rtcg-gen/main.go")
p("Flags are understood as described","rtcg-gen takes its flags with one or two dashes, before all other arguments, in any order and number, the last of each kind deciding; everything after them, and everything after --, is an argument.","every argument list","unbounded argument lists","cmd/rtcg-gen/main.go:parseArgs")

XC="internal/gen/config/config.go:Load,Config"
XP="internal/gen/config/cpp/cpp.go:Config,Include,Channel"
XK="internal/gen/config/catkin/package.go:Package,Write"
p("A configuration file is read exactly as it is written","rtcg-gen takes a configuration file for the one configuration that it says as an XML document (elements, attributes, entities, CDATA, comments), and refuses every other text with an error, without crashing.","every text","infinitely many texts; only a few files in testdata",XC,XP,XK)
p("Comments, unknown elements and order make no difference","A configuration means the same with comments, processing instructions, unknown elements or attributes put in anywhere, with elements of different names in another order, and whatever comes after the root element.","every document, every place in it, at any depth","all documents and all places",XC,XP)
p("Which configurations can be written","A configuration can be written as a file exactly if its texts have only characters that XML allows, its variants are known and its package formats are 64-bit.","every configuration","all configurations and all characters",XC,XP,XK)
p("package.xml says the package","package.xml is a well-formed XML document that says exactly the package it was written for, whatever markup characters are in its texts; characters that XML cannot write become U+FFFD.","every package","arbitrary texts, to be quoted",XK)
p("Every generated package.xml says the package of its test","After a successful generation each test has, wherever Catkin is configured, a package.xml that is an XML document for the configured package, filled in and expanded with the name of that test only.","every configuration file, suite and file system","unbounded suites; configuration is shared between tests","internal/gen/catkin/catkin.go:Generate,generateTest",XK,XC)

CMT="internal/gen/catkin/embed/templates/CMakeLists.txt.tmpl"
p("CMakeLists.txt builds the test","CMake understands the generated CMakeLists.txt as intended: a project named after the package, needing what the package depends on, with one program, made from exactly the test's main.cpp, the runtime and the conversion code, all of which are found where it says.","every package, test name, suite and value of CMake's variables","arbitrary names; CMake's reading of the text is involved",CMT,"internal/gen/catkin/catkin.go:Generate,generateTest")
p("CMakeLists.txt needs only what package.xml declares","Every catkin package that the CMakeLists.txt of a test needs or passes on is a dependency declared in its package.xml, and every dependency declared there is needed.","every package configuration and test name","two generated files must agree for every configuration",CMT,XK,"internal/gen/catkin/catkin.go:generateTest")

p("The programs never crash","Whatever its input, arguments and files, each of the programs ends with success or an error message, never with a panic; nor does any of them in a run of rtcg.sh.","every command line, file system and standard input","infinitely many inputs; crashes hide in inputs nobody wrote a test for","cmd/rtcg-read-traces/main.go:run",CM,"cmd/rtcg-gen/main.go:run","internal/validate/validate.go:Full","internal/stm/stm.go")
p("A JSON suite is read exactly as it says","A suite of tests or of machines in which no field is given twice is accepted exactly if each known field, found by its name in any case and whatever the order, holds a value of its kind or null; and what is read is just that, with the defaults for fields left out and unknown fields ignored.","every JSON value, nested to any depth","infinitely many documents, fields in any order and case",SJ,"internal/testlang/node.go:Node","internal/stm/suite.go:Suite,ReadSuite","internal/stm/state.go:State","internal/stm/verdict/verdict.go:UnmarshalJSON","internal/structure/set.go:UnmarshalJSON")

TS="internal/gen/templating/set.go:Generate,BuildFiles"
p("main.cpp is the text described","The templates for main.cpp, parsed and executed as text/template does (white space trimming, nested templates, maps in key order), produce for every test, machine and configuration exactly the C++ text that the specification spells out: a member, a case and an entry function for each state, a setter for each test, a callback for each output channel, each with its names and values, and nothing else.","every test name, machine, context and date, both variants","infinitely many machines; a template error shows only on inputs that reach it",TS,"internal/gen/cpp/template.go",TM+"base/base.cpp.tmpl",T1,T2,TM+"ros/main.cpp.tmpl",TM+"animate/main_body.cpp.tmpl")
p("convert.h is the text described","The templates for convert.h produce for every set of channel types exactly the text that the specification spells out: a value type, a message type and two conversion functions for each channel, declared only where the user overrides the type.","every context in which the types of the channels are known, both variants","infinitely many contexts",TS,"internal/gen/cpp/template.go",TM+"base/convert/convert_base.h.tmpl",TM+"ros/convert/convert.h.tmpl",TM+"animate/convert/convert.h.tmpl")
p("Templates fail only where there is nothing to write","Executing a template fails, with an error and not a crash, exactly without a first state, at an input state without transitions, or at a channel whose type is not known; the templates of the Makefile and CMakeLists.txt never fail, and produce the texts that the properties of those files are about.","every content of a generated file","infinitely many contexts; the failures are in text/template's run-time checks",TS,"internal/gen/templating/templating.go:CreateFile",TM+"base/in_callback.cpp.tmpl",TMK,CMT)
p("The files on disk hold these texts","After rtcg-gen has succeeded on any suite it could read, every main.cpp, convert.h, Makefile and CMakeLists.txt holds, character by character, the text described for it, and the runtime is the embedded one.","every command line, file system, configuration file and suite","unbounded suites; the whole path from command line to file contents","cmd/rtcg-gen/main.go:run","internal/gen/gen.go:Generate",TS,"internal/gen/cpp/copy.go:copyPrelude")

RTC="internal/gen/cpp/embed/prelude/rtcg.h"
RTX="internal/gen/cpp/embed/prelude/rtcg.cpp"
p("The generated text is C++","For every test whose channels, values and tests have names that can be written in C++ and do not clash, the text of main.cpp can be read as C++ (token by token, by its grammar): braces balance, every method that a class declares is defined exactly once with the types declared, nothing else is defined but the function naming states and main, and it makes one program together with the runtime.","every suite made by rtcg-make-stms, every well-named test, configuration and date, both variants","infinitely many machines and names; no unit test compiles the output",TM+"base/base.cpp.tmpl",T1,T2,TM+"ros/main.cpp.tmpl",TM+"animate/main_body.cpp.tmpl",RTC,RTX)
p("A callback of the generated text does what the machine says","Called on an object in any configuration, the method of the generated program for a timeout, start, acceptance or output returns and leaves the object in the configuration that one step of the state machine gives, sending exactly the inputs of that step and shutting ROS down exactly when the test ends.","every well-named test, reachable or unreachable configuration, callback and library behaviour, both variants","unbounded machines; the meaning of the generated code is involved",T1,T2,TM+"base/verdict.cpp.tmpl",TM+"base/out_callback.cpp.tmpl",RTC)
p("The generated ROS program runs the machine","The generated ROS program, driven by any sequence of callbacks, subscribes to every output by its topic, waits while the test goes on, and else ends with exit code 1 exactly on FAIL, having reported status and outcomes and sent the inputs that running the machine gives.","every well-named test, sequence of callbacks, and library behaviour","unbounded schedules; the whole program from main on",TM+"ros/main.cpp.tmpl",TM+"base/entry.cpp.tmpl",T1,T2)
p("The generated animation runs the machine","The generated animation, given any words typed (commands, outputs with values of their types, anything else), does what the machine does with the callbacks typed, waits for more while the test goes on, and else ends with the exit code of the machine, having reported status and outcomes and said the inputs sent; it reads nothing more.","every well-named test, sequence of words, and conversions that keep the values","unbounded inputs; the whole program from main on",TM+"animate/main.cpp.tmpl",TM+"animate/main_body.cpp.tmpl",TM+"base/entry.cpp.tmpl",T1,T2)
p("A good traces file becomes programs that find the traces","When rtcg.sh has succeeded on a good traces file, the files in the output directory make, for every trace and every configured variant, a C++ program that, driven by any callbacks (or by any words typed), ends with exit code 1 exactly when what it sees begins with the whole trace, waits exactly while it is a proper part of the trace, and sends the inputs of the trace in order, each once and in time.","every traces file with names that can be written in C++, configuration, file system, callback sequence or typed input, and library behaviour","the whole path from the traces file to the behaviour of the generated text, with unbounded traces and schedules","rtcg.sh","cmd/rtcg-gen/main.go:run","internal/gen/gen.go:Generate",TM+"ros/main.cpp.tmpl",TM+"animate/main_body.cpp.tmpl",T1,T2,"internal/trace/expand.go:Expand","internal/stm/builder.go")
p("How the test of a tree ends","Whatever callbacks come, the test of a tree goes down the tree as they lead, and its status, verdicts and inputs sent are those of the place it gets to: FAIL exactly where some test fails, waiting exactly while nothing has come that the place does not go on with, and otherwise an ending that says what came (a timeout, an output off the script, or an acknowledgement out of place); where no two continuations look alike, this determines the status.","every tree with the machine built from it, and every sequence of callbacks once the start delay is over","unbounded trees and schedules, with several tests sharing a program",T1,T2,RTX,"internal/stm/builder.go")
p("A suite of trees becomes programs that judge its tests","When rtcg-make-stms has succeeded on a suite of trees and rtcg-gen on its output, the files in the output directory make, for every tree with names for C++, a program that, driven by any callbacks or any words typed, waits while its test goes on and else ends with the exit code of its status; it says FAIL only after a path of the tree to a node where some test fails, and the verdicts it reports and the inputs it sends are those of the way that the callbacks lead. Both programs do succeed on well-formed trees whose channels have one kind of values.","every suite of trees, configuration, file system, callback sequence and library behaviour","the whole path from a JSON suite to the behaviour of the generated text, with unbounded trees and schedules","cmd/rtcg-make-stms/main.go:run","cmd/rtcg-gen/main.go:run","internal/gen/gen.go:Generate",TM+"ros/main.cpp.tmpl",TM+"animate/main_body.cpp.tmpl",T1,T2,"internal/stm/builder.go")

p("What is written does not depend on the order of maps","Go visits maps in an order that it leaves open. Whatever orders a run takes, rtcg-read-traces writes the same text; rtcg-make-stms succeeds or fails alike, and what it writes differs only in the order in which machines list their tests, so that for suites with one test per tree, such as those of rtcg-read-traces, it writes the same text.","every command line, file and standard input, and every order at every range over a map","the order is random, and a test sees a few of exponentially many","internal/structure/map.go:OverMap,TryOverMapValues","internal/structure/set.go:Values,MarshalJSON","internal/stm/builder.go:BuildMany,unifyTypes","internal/stm/verdict/verdict.go:MarshalJSON","internal/trace/expand.go:ExpandAll")
p("What is generated does not depend on the order of maps","Whatever the orders in which rtcg-gen visits maps, it succeeds or fails alike, and if it succeeds it leaves the same directories and the same files with the same lines; only the main.cpp of a machine of two or more tests may have some of its lines in another order. So for a good traces file rtcg.sh leaves the same texts whatever the orders in its three programs.","every command line, file system and suite of plainly named tests, and every order at every range over a map in any of the programs","the order is random, and a test sees a few of exponentially many","internal/gen/config/cpp/context.go:Process","internal/gen/cpp/cpp.go:Dirs,generateTests","internal/gen/catkin/catkin.go:Generate","internal/gen/makefile/makefile.go:Generate","internal/gen/gencommon/context.go:makeTransitions","rtcg.sh")

p("convert.h makes the program whole","For every suite that rtcg-make-stms gives, with channels called by words that differ in more than the case of their first letter, convert.h can be read as C++: it defines the two conversions of every channel that no type is configured for, declares those of the others, and no function is there twice. With types configured for all channels the program that all four files on disk make is the one that C110 and C112 are about. And for an animation, whatever is configured, the program with convert.h finds the traces and judges the tests as C110 and C112 say, taking and sending the values of channels without a type as they are.","every suite, configuration, test, typed input and library behaviour; for programs with default conversions, the variant animate","unbounded suites and inputs; the meaning of four generated texts together is involved",TM+"base/convert/convert_base.h.tmpl",TM+"animate/convert/convert.h.tmpl",TM+"ros/convert/convert.h.tmpl","internal/gen/config/cpp/context.go:Process",RTC,RTX)

p("Descriptions tell things apart","The description (String) of a trace, as reports of failed tests show it, determines the trace: its name, its prefix and its forbidden event with channel, direction and value. Two traces read from traces files are described alike only if they are the same, whatever commas, brackets and quotes are in their names and values, unless a channel has no name or a trace's name begins with <, where they need not be. Likewise descriptions of values, of events and, for test names without colons, of verdicts.","every pair of values, events, traces and verdicts; every two traces files","infinitely many texts; the ambiguities are in characters nobody tests","internal/trace/trace.go:String","internal/testlang/event.go:String","internal/testlang/value/value.go:String","internal/testlang/value/enum.go:String","internal/testlang/channel/channel.go:String","internal/stm/verdict/verdict.go:String")
p("A compiler sees the program meant","Preprocessed as a C++ compiler does it (files included where they are named, include guards, the words that convert.h defines replaced by the types they stand for), main.cpp with what it includes is convert.h and main.cpp as read on their own, with the types of the channels in place of the words; linked with the runtime it does whatever the texts read without a preprocessor do (C110, C112, C115). So the animations, and the ROS programs with types configured, as a compiler sees them, find the traces and judge the tests. No word of a program is replaced by accident unless a test is called by such a word. Both headers may be included more than once: included again they give nothing and define nothing.","every suite, configuration, test and library behaviour, both variants; typed words and callback sequences of any length","unbounded suites; textual replacement acts on every word of every generated text",TM+"base/convert/convert_base.h.tmpl",TM+"base/includes.cpp.tmpl",TM+"ros/convert/convert.h.tmpl",TM+"animate/convert/convert.h.tmpl",RTC,RTX,"internal/gen/cpp/cpp.go:Generate")
p("Conversions are right about types","Every conversion that convert.h defines by default returns, and sends, a value of the type that it declares, as the rules of C++ for copying, numbers, strings and members ask; so convert.h compiles for every suite. (False of the code: for ROS only channels of constants have such conversions, and in the animation channels that carry no value do not.)","every suite, configuration and channel, both variants","types are found from infinitely many suites; no unit test compiles the output",TM+"animate/convert/convert.h.tmpl",TM+"ros/convert/convert.h.tmpl",TM+"base/convert/convert_base.h.tmpl","internal/gen/config/cpp/context.go:Process","internal/gen/cpp/func.go:Funcs","internal/testlang/rstype/rstype.go")
p("Default conversions undo each other","For every channel that no type is configured for and whose values have a type that the default conversions are right for, convert.h defines a function that makes a message of a value and one that makes a value of a message, and the second, given what the first returns as the variant hands it over (in ROS by a pointer), gives the value back: every number, and every text (in ROS up to its first zero character).","every suite, configuration, channel and value, both variants","infinitely many values; no unit test runs the output",TM+"animate/convert/convert.h.tmpl",TM+"ros/convert/convert.h.tmpl",TM+"base/convert/convert_base.h.tmpl","internal/gen/cpp/func.go:ConvertTo,ConvertFrom")
p("An ill-formed test is refused for its first fault","If a test is ill-formed, validation reports the fault (one of ten, in a fixed order of precedence) of its first ill-formed node, the root first, then in pre-order; there is always exactly one such report. A suite is refused for the fault of one of its ill-formed tests, each of which may be the one. Collapsing a test into a trace reports the first fault along the branch, which may also be that the branch forks or stops.","every test tree and suite, every order of visiting the suite","trees are unbounded, faults combine","internal/validate/validate.go:Full,OneNext","internal/validate/node.go","internal/validate/errors.go","internal/validate/suite.go:FullSuite","internal/testlang/walk.go:Walk","internal/trace/collapse.go:Collapse")
p("Adding traces leaves other traces' programs alone","The program of a trace depends on the trace and its name, and, for animations, on the types of its outputs' channels only: two traces files, with the same configuration and date, give the same main.cpp, package.xml and CMakeLists.txt to every trace that both have under one name. In particular traces can be appended to a file: those that were there keep their names and programs, an animation too if the new traces do not widen the types of its outputs' channels.","every two good traces files, every configuration, both variants","relates two runs over infinitely many files",RTC,"internal/trace/trace.go",TM+"animate/main.cpp.tmpl",TM+"ros/main.cpp.tmpl")
with open("/verif/properties.jsonl","w") as f:
    for x in P: f.write(json.dumps(x)+"\n")
print(len(P)); 
for x in P: print(x["id"], x["title"])
