{"id": "C01", "title": "Enum texts print and parse back, case-insensitively, and nothing else parses", "statement": "For the channel kind, the test outcome, the C++ variant, the type kind and the arithmetic domain: the text printed for a declared member parses back to that member; any case variant of a member's text parses to it; any other text is rejected; and a numeric value outside the declared members prints as Name(N), which is rejected on parse.", "quantifier": "every numeric enum value 0..255 and every text", "why_tests_cant": "the set of texts and their case variants (and Unicode case mappings) is unbounded", "anchors": ["internal/testlang/channel/kind_enum.go:ParseKind,Kind.String", "internal/testlang/outcome_enum.go:ParseOutcome,Outcome.String", "internal/gen/config/cpp/variant_enum.go:ParseVariant", "internal/testlang/rstype/kind_enum.go", "internal/testlang/rstype/arithmos_enum.go"]}
{"id": "C02", "title": "Channel text round-trip, exactly", "statement": "Marshalling a channel to text and unmarshalling the text gives back the same channel exactly when the name is non-empty, has no surrounding white space and no '.', and the kind is one of in/out/call.", "quantifier": "every channel name and every numeric kind", "why_tests_cant": "names are arbitrary strings; tests try two", "anchors": ["internal/testlang/channel/channel.go:MarshalText,UnmarshalText,UnmarshalTextWithRemainder"]}
{"id": "C03", "title": "Channel/event text acceptance", "statement": "A text is accepted as a channel exactly when its part before the first '.' exists and the next '.'-delimited part, stripped of white space, names a kind ignoring case; the channel name is the stripped first part; everything after the second '.' (dots included) is the value text; a text with no '.' is rejected with the field-count error.", "quantifier": "every text", "why_tests_cant": "unbounded input space", "anchors": ["internal/testlang/channel/channel.go:UnmarshalTextWithRemainder"]}
{"id": "C04", "title": "Integer values survive text", "statement": "Every 64-bit integer value prints as a decimal text that parses back to the same integer value; a text parses as an integer value exactly when it is an optional sign followed by one or more decimal digits denoting a number in the signed 64-bit range, and then the parsed number is the denoted one.", "quantifier": "all 2^64 integers and every text", "why_tests_cant": "2^64 values and unbounded texts", "anchors": ["internal/testlang/value/int.go:MarshalText,UnmarshalText,StringValue"]}
{"id": "C05", "title": "Value parsing is total and its classification exact", "statement": "Parsing a value text never fails: the surrounding white space is dropped and the rest becomes an integer value when it parses as one, and otherwise (empty text and out-of-range numbers included) an enumeration constant with exactly that text. The 'unsupported value type' error is unreachable.", "quantifier": "every text", "why_tests_cant": "unbounded input space; the unreachable error branch cannot be tested", "anchors": ["internal/testlang/value/value.go:UnmarshalText"]}
{"id": "C06", "title": "Value text round-trip, exactly", "statement": "Marshalling a value and unmarshalling the text gives back the same value exactly when the value is an integer, or an enumeration constant with no surrounding white space that does not itself read as a 64-bit integer; marshalling an absent value is an error.", "quantifier": "every value", "why_tests_cant": "enumeration constants are arbitrary strings", "anchors": ["internal/testlang/value/value.go:MarshalText,UnmarshalText", "internal/testlang/value/enum.go"]}
{"id": "C07", "title": "Event text round-trip, exactly", "statement": "Marshalling an event and unmarshalling into a fresh event gives back the same event exactly when its channel round-trips and its value is absent or round-trips. In particular an event accepted with an empty channel name is printed as a text that no longer parses.", "quantifier": "every event", "why_tests_cant": "channels and values are arbitrary strings", "anchors": ["internal/testlang/event.go:MarshalText,UnmarshalText"]}
{"id": "C08", "title": "Unmarshalling an event overwrites what was there", "statement": "The event obtained by unmarshalling a text does not depend on what the receiving event held before.", "quantifier": "every text and every prior content of the receiver", "why_tests_cant": "depends on the history of the receiver", "anchors": ["internal/testlang/event.go:UnmarshalText"]}
{"id": "C09", "title": "Equality of channels, values, events and traces is equality", "statement": "The Equals methods of channels, values, events and traces return true exactly when the two operands are the same, and IsPrefixOf is true exactly when one trace is an initial segment of the other; hence they are equivalence relations (resp. a partial order).", "quantifier": "every pair of channels, values, events, traces of any length", "why_tests_cant": "unbounded pairs and lengths", "anchors": ["internal/testlang/channel/channel.go:Equals", "internal/testlang/value/value.go:Equals", "internal/testlang/event.go:Equals", "internal/trace/trace.go:Equals,IsPrefixOf"]}
{"id": "C10", "title": "Type names round-trip", "statement": "Every type that can be printed ((), nat, int, real, enum) prints to a text that reads back as that type; reading ignores case and accepts only those five names; marshalling fails exactly for arithmetic types with an unknown domain or out-of-range kinds.", "quantifier": "every type structure and every text", "why_tests_cant": "unbounded texts, 2^16 structures", "anchors": ["internal/testlang/rstype/rstype.go:MarshalText,UnmarshalText,tryString"]}
{"id": "C11", "title": "Type unification is a least upper bound", "statement": "Unifying two types fails exactly when they have different kinds, otherwise yields their least upper bound in nat < int < real (and (), enum only with themselves); absent types are neutral; the operation is commutative, associative (errors included) and idempotent on well-formed types, so folding it over any arrangement of the same types gives the same answer.", "quantifier": "all types, all finite collections and arrangements of types", "why_tests_cant": "all arrangements of unbounded collections", "anchors": ["internal/testlang/rstype/unify.go:Unify", "internal/testlang/rstype/arithmos.go:MaxDomain"]}
{"id": "C12", "title": "A written trace file reads back", "statement": "Writing any list of named or unnamed forbidden traces in the documented CSV format (one line per trace, cells separated by commas with any leading spaces, optional 'name:' prefix on the first cell) and reading it yields exactly that list, provided names and event texts avoid the format's own delimiters.", "quantifier": "every list of forbidden traces of every length", "why_tests_cant": "unbounded files", "anchors": ["internal/trace/read.go:Read,parseRow,tryParseName"]}
{"id": "C13", "title": "Comment lines and blank lines do not matter", "statement": "Inserting a line starting with '#', or an empty line, between the complete lines of a trace file does not change what is read (traces or error).", "quantifier": "every file without quoted cells, every insertion point, every comment text", "why_tests_cant": "unbounded files and insertion points", "anchors": ["internal/trace/read.go:Read,newReader"]}
{"id": "C14", "title": "Reading is all or nothing and keeps row shape", "statement": "If reading succeeds, there is one trace per CSV record in order; a record with n cells gives a prefix of n-1 events and one forbidden event, each the parse of its cell; if any record is malformed reading fails and returns no traces; the 'needs one event' error is unreachable from files.", "quantifier": "every input text", "why_tests_cant": "unbounded files", "anchors": ["internal/trace/read.go:Read,parseRow,selectEvent"]}
{"id": "C15", "title": "Naming keeps every trace under its own name", "statement": "Name always terminates, and assigns the traces pairwise distinct non-empty names: the resulting map has exactly as many entries as there are traces and holds each input trace, unchanged, under its assigned name.", "quantifier": "every list of traces, including adversarial names such as foo0", "why_tests_cant": "unbounded lists and name collisions; termination", "anchors": ["internal/trace/trace.go:Name,insertName,synthesiseName"]}
{"id": "C16", "title": "Naming honours given names and is stable", "statement": "Each trace is stored under the first free candidate: for an unnamed trace (or one named 'test') test0, test1, ...; otherwise its own name, then name0, name1, ...; and appending more traces never changes the names of the earlier ones.", "quantifier": "every list of traces and every extension of it", "why_tests_cant": "depends on the whole history of earlier names", "anchors": ["internal/trace/trace.go:Name,insertName,synthesiseName"]}
{"id": "C17", "title": "Expansion is the faithful tree of the trace", "statement": "Expanding a forbidden trace under a name gives a single-branch tree: an outcome-less, event-less root, then one inconclusive node per prefix event in order, one passing node with the forbidden event, then a failing leaf; every node is tagged with exactly that name.", "quantifier": "every trace of every length and every name", "why_tests_cant": "unbounded prefixes", "anchors": ["internal/trace/expand.go:Expand,ExpandAll", "internal/testlang/node.go:TestPoint,Inc,Root,Mark"]}
{"id": "C18", "title": "Expansions always validate", "statement": "Full validation accepts the expansion of every forbidden trace, so rtcg-make-stms never rejects the structure of a suite produced from traces.", "quantifier": "every trace, name and suite", "why_tests_cant": "unbounded traces", "anchors": ["internal/trace/expand.go:Expand", "internal/validate/validate.go:Full", "internal/validate/suite.go:FullSuite"]}
{"id": "C19", "title": "Collapse inverts Expand", "statement": "Collapsing the expansion of a forbidden trace succeeds and returns the same prefix and forbidden event (the name is carried by the suite key, not by the result); the same holds entry by entry for whole suites.", "quantifier": "every trace, name and suite", "why_tests_cant": "unbounded traces and suites", "anchors": ["internal/trace/collapse.go:Collapse,CollapseAll", "internal/trace/expand.go:Expand,ExpandAll"]}
{"id": "C20", "title": "The full suite round-trip of the fuzz test", "statement": "For every list of traces, CollapseAll(ExpandAll(Name(traces))) equals Name(traces), as the project's fuzz test asserts.", "quantifier": "every list of traces", "why_tests_cant": "the fuzz test only samples; it never seeds a named trace", "anchors": ["internal/trace/expand_test.go:FuzzExpandAllCollapseAllRoundTrip", "internal/trace/collapse.go:Collapse"]}
{"id": "C21", "title": "Collapse accepts only expanded traces", "statement": "If Collapse succeeds on a tree then expanding its result gives back that tree (up to test tags and node IDs).", "quantifier": "every test tree", "why_tests_cant": "unbounded trees", "anchors": ["internal/trace/collapse.go:Collapse,collapseNode"]}
{"id": "C22", "title": "Walk visits every node once, parents first", "statement": "Walk applies the function to every node of the tree exactly once in pre-order (children left to right), and stops at the first error, returning that error.", "quantifier": "every tree and every visitor", "why_tests_cant": "unbounded trees and visitor functions", "anchors": ["internal/testlang/walk.go:Walk"]}
{"id": "C23", "title": "MarkAll tags every node and nothing else", "statement": "After MarkAll every node of the tree carries exactly the given tests and no other field or the shape has changed.", "quantifier": "every tree and tag list", "why_tests_cant": "unbounded trees", "anchors": ["internal/testlang/walk.go:MarkAll"]}
{"id": "C24", "title": "Validation accepts exactly the well-formed trees", "statement": "Full validation succeeds exactly when the root has no event and no outcome and at least one test, and every other node has at least one test and is a leaf failing node without event, or a passing node with an event and exactly one continuation, or an inconclusive node with an event and at least one continuation; on success the validated test is the same tree.", "quantifier": "every tree", "why_tests_cant": "unbounded trees", "anchors": ["internal/validate/validate.go:Full,OneNext", "internal/validate/node.go:Root,Node,failNode,passNode,nonFailNode"]}
{"id": "C25", "title": "Suite validation is all-or-nothing and order-independent", "statement": "FullSuite succeeds exactly when every test validates, and then contains exactly the same tests under the same names, whatever order the map is visited in.", "quantifier": "every suite and every iteration order", "why_tests_cant": "Go randomises map iteration", "anchors": ["internal/validate/suite.go:FullSuite", "internal/structure/map.go:TryOverMapValues"]}
{"id": "C26", "title": "Validation never crashes", "statement": "Full validation of a decoded suite returns a value or an error and never crashes.", "quantifier": "every suite that JSON decoding can produce, null entries included", "why_tests_cant": "unbounded inputs", "anchors": ["internal/validate/validate.go:Full", "internal/validate/node.go:Root", "internal/testlang/testlang.go:ReadSuite"]}
{"id": "C27", "title": "Building a validated test never crashes and only fails on type conflicts", "statement": "Build on a validated test terminates without panicking; it returns an error exactly when some channel name carries values of two different type kinds in the non-failing nodes.", "quantifier": "every validated tree", "why_tests_cant": "unbounded trees", "anchors": ["internal/stm/builder.go:Build,processNode,inferEventType", "internal/stm/state.go:addTransitionToNode"]}
{"id": "C28", "title": "One state per non-failing node, initial first", "statement": "The built machine has exactly one state per non-failing node of the tree (the root included); the first state is the root's, with ID 'initial', and InitialState returns it.", "quantifier": "every validated tree that builds", "why_tests_cant": "unbounded trees", "anchors": ["internal/stm/builder.go:Build,processNode", "internal/stm/stm.go:InitialState"]}
{"id": "C29", "title": "State IDs are non-empty and distinct", "statement": "All states of a built machine have non-empty, pairwise distinct IDs (holds for trees without caller-assigned IDs, as produced from traces).", "quantifier": "every validated tree", "why_tests_cant": "unbounded trees, and collisions with caller-assigned IDs", "anchors": ["internal/stm/builder.go:ensureNodeID,Build"]}
{"id": "C30", "title": "Transitions are closed", "statement": "Every transition of a built machine targets the ID of a state of the machine, and (without caller-assigned IDs) every non-initial state is the target of exactly one transition while the initial state is the target of none.", "quantifier": "every validated tree that builds", "why_tests_cant": "unbounded trees", "anchors": ["internal/stm/builder.go:processNode,pushNext,buildState", "internal/stm/state.go:addTransitionToNode"]}
{"id": "C31", "title": "Transitions are the tree's branches", "statement": "The state built for a node has one transition per non-failing continuation, carrying that continuation's channel and value and leading to its state, grouped by channel in order of first use and keeping the branch order inside each group; there are no others.", "quantifier": "every node of every validated tree", "why_tests_cant": "unbounded branching", "anchors": ["internal/stm/builder.go:buildState", "internal/stm/state.go:AddOutgoingNode,addTransitionToNode", "internal/stm/transition/set.go:AddToSets"]}
{"id": "C32", "title": "Verdicts are the continuations' outcomes", "statement": "The verdict of a state maps a test name to the outcome of the last continuation of its node tagged with that test, and has no other entries.", "quantifier": "every node of every validated tree", "why_tests_cant": "unbounded branching and tags", "anchors": ["internal/stm/state.go:addVerdictsFromNode", "internal/stm/verdict/verdict.go:Add"]}
{"id": "C33", "title": "The machine's test set is complete", "statement": "The Tests set of a built machine is exactly the set of tests tagging non-root nodes; every test mentioned in any state's verdict is in it.", "quantifier": "every validated tree", "why_tests_cant": "unbounded trees", "anchors": ["internal/stm/builder.go:buildState", "internal/structure/set.go:Add"]}
{"id": "C34", "title": "Inferred channel types are the least upper bounds", "statement": "After a successful Build the type recorded for a channel name is the least upper bound of the types of the values carried on it by the non-failing nodes (no value counts as the empty type), and channels that do not occur have no entry.", "quantifier": "every validated tree that builds", "why_tests_cant": "unbounded trees and value combinations", "anchors": ["internal/stm/builder.go:inferNodeEventType,inferEventType", "internal/testlang/rstype/unify.go:Unify"]}
{"id": "C35", "title": "Builders carry no state between tests", "statement": "The result of Build does not depend on what the same Builder built, or failed to build, before.", "quantifier": "every prior builder state/history and every tree", "why_tests_cant": "unbounded histories", "anchors": ["internal/stm/builder.go:Build"]}
{"id": "C36", "title": "Suite building is per-test and order-independent", "statement": "BuildSuite succeeds exactly when every test builds and no channel has two type kinds across the suite; then each test has its own machine, the suite types are the least upper bounds over all tests, and neither success nor any result depends on map iteration order.", "quantifier": "every validated suite and every iteration order", "why_tests_cant": "Go randomises map iteration", "anchors": ["internal/stm/builder.go:BuildSuite,BuildMany,unifyTypes"]}
{"id": "C37", "title": "Grouping by channel keeps channels unique", "statement": "Adding transitions one by one yields at most one set per channel, in order of first use, each holding exactly the transitions added for that channel in the order added.", "quantifier": "every sequence of additions", "why_tests_cant": "unbounded histories", "anchors": ["internal/stm/transition/set.go:AddToSets"]}
{"id": "C38", "title": "Aggregation is a complete regrouping", "statement": "The aggregate transition sets of a machine have one entry per channel used anywhere, and the transition list stored for channel c and state s is exactly the concatenation of the transitions on c of the states with ID s.", "quantifier": "every machine", "why_tests_cant": "unbounded machines", "anchors": ["internal/stm/stm.go:TransitionSets", "internal/stm/transition/set.go:AddToAggregateSets"]}
{"id": "C39", "title": "Template transition context partitions the channels", "statement": "In the context given to templates, In and Out partition the aggregate sets into input channels and all others (calls included), HasIn says whether In is non-empty, InMerged maps each state to all its input transitions, and FirstStateHasIn holds exactly when the first state has an input transition set.", "quantifier": "every machine", "why_tests_cant": "unbounded machines", "anchors": ["internal/gen/gencommon/context.go:makeTransitions,populateFilters,addInput,firstStateHasIn"]}
{"id": "C40", "title": "Verdict queries agree with the map", "statement": "Is(o) holds exactly when some test has outcome o; SetOf(o) is exactly the set of those tests; Tests lists every covered test once in ascending order; all independent of map iteration order.", "quantifier": "every verdict map and iteration order", "why_tests_cant": "unbounded maps", "anchors": ["internal/stm/verdict/verdict.go:Is,SetOf,Tests,Add"]}
{"id": "C41", "title": "Stack and Set behave like a stack and a set", "statement": "Any sequence of Push/Pop/Clear/IsEmpty behaves as a LIFO stack (popping an empty stack is the only panic); any sequence of Add keeps Values duplicate-free with exactly the added elements.", "quantifier": "every operation sequence", "why_tests_cant": "unbounded histories", "anchors": ["internal/structure/stack.go", "internal/structure/set.go"]}
{"id": "C42", "title": "Factorisation finds exactly the relevant failures", "statement": "Failures(tests, after) lists exactly the tests whose prefix equals after, each once, with its forbidden event; SpineNodes puts each input failure on its own spine copy and all others on one final spine, losing and duplicating none.", "quantifier": "every suite, trace and iteration order", "why_tests_cant": "unbounded suites", "anchors": ["internal/factorise/factorise.go:SpineNodes,Failures,lastEvent"]}
{"id": "C43", "title": "Topic names are lower_underscored", "statement": "ToLowerUnderscored inserts '_' exactly before each upper-case letter that follows a lower-case one and lower-cases everything else; for ASCII identifiers its output has no upper-case letter and it is idempotent.", "quantifier": "every identifier", "why_tests_cant": "unbounded strings", "anchors": ["internal/strmanip/strmanip.go:ToLowerUnderscored,format,addChar,markSplit"]}
{"id": "C44", "title": "UpcaseFirst touches only the first letter", "statement": "UpcaseFirst upper-cases the first character, leaves the rest alone and is idempotent whenever upper-casing that character is.", "quantifier": "every identifier", "why_tests_cant": "unbounded strings", "anchors": ["internal/strmanip/strmanip.go:UpcaseFirst", "internal/gen/cpp/func.go"]}
{"id": "C45", "title": "Generated C++ names are unambiguous for machines built from traces", "statement": "For a machine built from a tree without caller-assigned IDs the C++ state enum members, and the state entry functions, are pairwise distinct.", "quantifier": "every validated tree without caller-assigned IDs", "why_tests_cant": "unbounded machines", "anchors": ["internal/gen/cpp/func.go:StateEnum,StateEntry,EnumField"]}
{"id": "C46", "title": "Autofill only fills blanks", "statement": "Autofill sets the format to 2, leaves every non-empty field and all dependency lists unchanged, leaves no name/description/maintainer/license/version field empty, and is idempotent.", "quantifier": "every package", "why_tests_cant": "unbounded field contents", "anchors": ["internal/gen/config/catkin/package.go:Autofill,autofillOne"]}
{"id": "C47", "title": "Expanding a package replaces every placeholder", "statement": "Expand replaces every occurrence of ${NAME} in name, description, maintainer and license by the test name and touches nothing else; afterwards no placeholder remains provided the test name cannot itself complete one.", "quantifier": "every package and test name", "why_tests_cant": "unbounded templates", "anchors": ["internal/gen/config/catkin/package.go:Expand,expandOne", "internal/gen/catkin/catkin.go:generateTest"]}
{"id": "C48", "title": "Type overrides reach exactly the typed channels", "statement": "The C++ context has an entry for exactly the channels with an inferred type, with that type and the last configured override for the channel (none if unconfigured); HasConversion holds exactly when some typed channel is configured; independent of map iteration order.", "quantifier": "every configuration, type map and iteration order", "why_tests_cant": "unbounded configurations", "anchors": ["internal/gen/config/cpp/context.go:Process", "internal/gen/config/cpp/cpp.go:ChannelMap"]}
{"id": "C49", "title": "Generated files stay inside the output directory", "statement": "Every directory made and file written by rtcg-gen lies inside the chosen output directory (for test names that are plain path components).", "quantifier": "every configuration, suite and output directory", "why_tests_cant": "unbounded names and paths", "anchors": ["internal/gen/gencommon/dirset.go:Subdir,OutputPath", "internal/gen/cpp/cpp.go:Dirs", "internal/gen/gen.go:mkdirs,runSubgens"]}
{"id": "C50", "title": "Generation creates the directories it writes into", "statement": "Starting from an empty output location, generation never fails for want of a directory: the parent of every file written has been made beforehand.", "quantifier": "every configuration and suite", "why_tests_cant": "unbounded configurations; depends on filesystem state", "anchors": ["internal/gen/cpp/cpp.go:Dirs,generateCommon", "internal/gen/cpp/template.go:makeTemplatedGenerators", "internal/gen/gen.go:Generate"]}
{"id": "C51", "title": "No generated file overwrites another", "statement": "With at most one C++ configuration per variant, all files written in one generation have pairwise distinct paths.", "quantifier": "every configuration and suite with plain test names", "why_tests_cant": "unbounded suites", "anchors": ["internal/gen/gen.go:initCpp", "internal/gen/cpp/cpp.go:Generate", "internal/gen/catkin/catkin.go:Generate", "internal/gen/makefile/makefile.go:Generate"]}
{"id": "C52", "title": "-clean never removes the working directory or an ancestor", "statement": "With -clean, rtcg-gen refuses to remove the current directory or a directory containing it.", "quantifier": "every -output argument", "why_tests_cant": "unbounded paths; destructive to test", "anchors": ["cmd/rtcg-gen/main.go:maybeClean,run"]}
{"id": "C53", "title": "Command lines: last argument is the optional file", "statement": "ParseFileArgument returns the last argument when all are given, '-' when exactly the last is missing, and the bad-arguments error for every other count, so no tool indexes out of range.", "quantifier": "every argument list and expected count", "why_tests_cant": "unbounded argument lists", "anchors": ["internal/cli/cli.go:ParseFileArgument", "cmd/rtcg-gen/main.go:parseArgs"]}
{"id": "C54", "title": "Test suites survive JSON", "statement": "Writing a test suite whose events round-trip through text as JSON and reading it back gives the same suite.", "quantifier": "every suite of trees", "why_tests_cant": "unbounded trees", "anchors": ["internal/testlang/testlang.go:ReadSuite,Write", "internal/testlang/node.go:Node", "internal/serial/serial.go"]}
{"id": "C55", "title": "State machine suites survive JSON", "statement": "Writing a state machine suite whose transition values and channels round-trip as JSON and reading it back gives the same suite.", "quantifier": "every state machine suite", "why_tests_cant": "unbounded machines", "anchors": ["internal/stm/suite.go:ReadSuite,Write", "internal/stm/stm.go", "internal/stm/verdict/verdict.go:MarshalJSON,UnmarshalJSON", "internal/structure/set.go:MarshalJSON,UnmarshalJSON"]}
{"id": "C56", "title": "rtcg-make-stms emits a machine for every valid, consistently typed suite", "statement": "For every valid test suite with consistent types, rtcg-make-stms writes the state machines.", "quantifier": "every valid suite, including events that carry no value", "why_tests_cant": "unbounded suites", "anchors": ["cmd/rtcg-make-stms/main.go:run", "internal/stm/transition/transition.go:Transition", "internal/testlang/value/value.go:MarshalText"]}
{"id": "C57", "title": "End to end: traces to machines", "statement": "For every trace file whose events carry round-tripping values with consistent types, the read-traces | make-stms pipeline (through JSON) succeeds and the machine of each test is the linear machine of its trace: states initial, step0, step1, ..., one transition per event in order, verdict inc before the last step, pass on the step before the forbidden event, fail after it.", "quantifier": "every list of traces", "why_tests_cant": "unbounded files; crosses two processes", "anchors": ["rtcg.sh", "cmd/rtcg-read-traces/main.go:run", "cmd/rtcg-make-stms/main.go:run"]}
{"id": "C58", "title": "The generated test fails exactly on the forbidden trace", "statement": "A generated test for a forbidden trace, driven by any sequence of callbacks (outputs, input acknowledgements, start delay, timeout) and stopped when it ends, ends with status FAIL exactly when the observed events start with the whole prefix followed by the forbidden event.", "quantifier": "every trace and every callback sequence", "why_tests_cant": "unbounded schedules of callbacks", "anchors": ["internal/gen/cpp/embed/templates/base/stm.cpp.tmpl", "internal/gen/cpp/embed/templates/base/out_callback.cpp.tmpl", "internal/gen/cpp/embed/templates/base/in_callback.cpp.tmpl", "internal/gen/cpp/embed/templates/base/state_entry.cpp.tmpl"]}
{"id": "C59", "title": "The reported verdict tracks the progress", "statement": "While running a generated test, the recorded verdict is inconclusive while part of the prefix is still to come, pass when only the forbidden event is left, fail once it has occurred, and it never goes back.", "quantifier": "every trace and every callback sequence", "why_tests_cant": "unbounded schedules", "anchors": ["internal/gen/cpp/embed/templates/base/verdict.cpp.tmpl", "internal/gen/cpp/embed/templates/base/state_entry.cpp.tmpl"]}
{"id": "C60", "title": "An ended test stays ended", "statement": "Once a generated test has ended, no later callback changes its status.", "quantifier": "every machine and every callback sequence", "why_tests_cant": "unbounded schedules; late callbacks are races", "anchors": ["internal/gen/cpp/embed/templates/base/stm.cpp.tmpl:end,timeoutCallback", "internal/gen/cpp/embed/templates/base/state_entry.cpp.tmpl"]}
{"id": "C61", "title": "Exit codes report the verdict", "statement": "The test program exits with 1 exactly when the forbidden behaviour occurred, 2 exactly on an internal error, 0 otherwise.", "quantifier": "every run", "why_tests_cant": "all statuses and runs", "anchors": ["internal/gen/cpp/embed/prelude/rtcg.cpp:exitCode", "internal/gen/cpp/embed/templates/base/entry.cpp.tmpl"]}
{"id": "C62", "title": "Inputs are sent on script", "statement": "A generated test for a trace sends the SUT exactly the inputs of the trace reached so far, in order, each once, and never sends the first input before the start delay when the test starts with an input.", "quantifier": "every trace and callback sequence", "why_tests_cant": "unbounded schedules", "anchors": ["internal/gen/cpp/embed/templates/base/state_entry.cpp.tmpl", "internal/stm/state.go:In,HasIn"]}
{"id": "C63", "title": "The harness never leaves the machine", "statement": "For every machine built from a validated tree without caller-assigned IDs, in every callback sequence the harness only ever enters states of the machine and records verdicts only for tests it declares; it reports an internal error only for an input acknowledgement in a state without inputs.", "quantifier": "every validated tree and every callback sequence", "why_tests_cant": "unbounded machines and schedules", "anchors": ["internal/gen/cpp/embed/templates/base/stm.cpp.tmpl", "internal/gen/gencommon/context.go"]}
{"id": "C64", "title": "Building is repeatable", "statement": "Building the same test again (Build assigns IDs to the tree it is given) yields the identical machine.", "quantifier": "every validated tree", "why_tests_cant": "depends on the mutation history of the tree", "anchors": ["internal/stm/builder.go:Build,ensureNodeID"]}
{"id": "C65", "title": "Generation leaves its inputs alone", "statement": "Running rtcg-gen never changes the user's own conversion code in the configuration directory, whatever output directory is chosen.", "quantifier": "every configuration, suite, output directory and initial file system", "why_tests_cant": "any layout of directories, including overlapping ones", "anchors": ["internal/gen/cpp/copy.go:copyLocalFile,writeFile", "cmd/rtcg-gen/main.go:run"]}
{"id": "C66", "title": "Every generated file holds what was generated for it", "statement": "After a successful generation each test's main.cpp is the one made from that test's machine, each package file the one made for that test, in the directory of its variant; the conversion code is a copy of the user's; all other files are as before.", "quantifier": "every configuration, suite and initial file system", "why_tests_cant": "unbounded suites, any map iteration order", "anchors": ["internal/gen/cpp/cpp.go:Generate", "internal/gen/catkin/catkin.go:Generate", "internal/gen/makefile/makefile.go:Generate"]}
{"id": "C67", "title": "Generation is repeatable", "statement": "Generating again over the result of a successful generation, with nothing changed in between, succeeds and changes nothing.", "quantifier": "every configuration, suite and initial file system", "why_tests_cant": "a history of two runs on an arbitrary file system", "anchors": ["internal/gen/gen.go:Generate", "internal/gen/templating/templating.go:CreateFile"]}
{"id": "C68", "title": "Programs of merged trees raise no false alarms", "statement": "For every validated test tree (not only single traces), the generated program, driven by any callbacks, ends with FAIL only if what it saw starts with a path of the tree to a node where some test fails.", "quantifier": "every validated tree and every callback sequence", "why_tests_cant": "unbounded trees and schedules", "anchors": ["internal/gen/cpp/embed/templates/base/stm.cpp.tmpl", "internal/gen/cpp/embed/templates/base/state_entry.cpp.tmpl", "internal/stm/builder.go:Build"]}
{"id": "C69", "title": "Programs of merged trees miss no failure", "statement": "If no node of a validated tree has two continuations that look alike, the generated program ends with FAIL on every schedule that starts with a path of the tree to a node where some test fails.", "quantifier": "every such tree and every callback sequence", "why_tests_cant": "unbounded trees and schedules", "anchors": ["internal/gen/cpp/embed/templates/base/stm.cpp.tmpl", "internal/gen/cpp/embed/templates/base/state_entry.cpp.tmpl", "internal/stm/builder.go:Build"]}
{"id": "C70", "title": "Verdicts of merged trees follow the path", "statement": "The verdict a generated program reports for each test is the one given by the deepest node, along the path of the tree that was seen, that says anything about that test.", "quantifier": "every validated tree and every callback sequence with the start delay over first", "why_tests_cant": "unbounded trees and schedules", "anchors": ["internal/gen/cpp/embed/templates/base/verdict.cpp.tmpl", "internal/gen/cpp/embed/templates/base/state_entry.cpp.tmpl", "internal/stm/builder.go:processOutgoingNode"]}
{"id": "C71", "title": "Inputs of merged trees follow the path", "statement": "A generated program has sent exactly the inputs offered by the nodes along the path of the tree that was seen, in order and each once.", "quantifier": "every validated tree without look-alike continuations, every callback sequence with the start delay over first", "why_tests_cant": "unbounded trees and schedules", "anchors": ["internal/gen/cpp/embed/templates/base/state_entry.cpp.tmpl", "internal/stm/state.go:In,HasIn"]}
{"id": "C72", "title": "The three programs together do the job", "statement": "Take any well-formed traces file: rtcg-read-traces, rtcg-make-stms and rtcg-gen, run one after the other on each other's output, give for each trace a program that ends with FAIL (exit code 1) exactly when the events seen start with the forbidden trace, and whose reported verdict is then fail.", "quantifier": "every traces file, configuration, file system and callback sequence, every map iteration order", "why_tests_cant": "the composition of three programs, on unbounded inputs and schedules", "anchors": ["cmd/rtcg-read-traces/main.go", "cmd/rtcg-make-stms/main.go", "cmd/rtcg-gen/main.go", "internal/gen/cpp/embed/templates/base/stm.cpp.tmpl"]}
{"id": "C73", "title": "Generation does not fail half way on a made suite", "statement": "On any suite of state machines made by rtcg-make-stms, every template executes without error (no missing type, no state without a successor, no machine without states), so generation fails only for reasons of the file system.", "quantifier": "every validated suite, configuration, variant and initial file system", "why_tests_cant": "unbounded suites and every map order; the failure is in template execution", "anchors": ["internal/gen/templating/set.go", "internal/gen/cpp/embed/templates/base/convert/convert_base.h.tmpl", "internal/gen/cpp/embed/templates/base/in_callback.cpp.tmpl", "internal/stm/stm.go:InitialState"]}
{"id": "C74", "title": "Every name used is declared", "statement": "In a generated program every state entry function called, verdict setter called, state named in a case label, and conversion function or type used is declared.", "quantifier": "every validated suite, machine, configuration and variant", "why_tests_cant": "unbounded machines and arbitrary names", "anchors": ["internal/gen/cpp/embed/templates/base/stm.cpp.tmpl", "internal/gen/cpp/embed/templates/base/state_entry.cpp.tmpl", "internal/gen/cpp/embed/templates/base/state_meta.cpp.tmpl", "internal/gen/cpp/embed/templates/base/verdict.cpp.tmpl", "internal/gen/cpp/embed/templates/base/convert/convert_base.h.tmpl"]}
{"id": "C75", "title": "Class members have distinct names", "statement": "The members declared in a generated state machine class (callbacks, entry functions, fields) have different names.", "quantifier": "every validated suite without caller-assigned IDs, every machine, both variants", "why_tests_cant": "arbitrary channel names and unbounded state numbers", "anchors": ["internal/gen/cpp/embed/templates/base/stm.cpp.tmpl", "internal/gen/cpp/func.go:CallbackName,StateEntry"]}
{"id": "C76", "title": "Verdict members have distinct names", "statement": "The members declared in the generated verdict class (one setter and one field per test) have different names.", "quantifier": "every validated suite and machine", "why_tests_cant": "arbitrary test names", "anchors": ["internal/gen/cpp/embed/templates/base/verdict.cpp.tmpl", "internal/stm/stm.go:Tests"]}
{"id": "C77", "title": "Conversion names are distinct", "statement": "The macros and functions declared in convert.h for different channels have different names.", "quantifier": "every configuration and every map of channel types", "why_tests_cant": "arbitrary channel names", "anchors": ["internal/gen/cpp/embed/templates/base/convert/convert_base.h.tmpl", "internal/strmanip/strmanip.go:UpcaseFirst"]}
{"id": "C78", "title": "ROS topics and variables are distinct", "statement": "A generated ROS program uses different topics, and different variables, for different channels.", "quantifier": "every machine", "why_tests_cant": "arbitrary channel names", "anchors": ["internal/gen/cpp/embed/templates/ros/main.cpp.tmpl", "internal/strmanip/strmanip.go:ToLowerUnderscored"]}
{"id": "C79", "title": "Every value fits the C++ type of its channel", "statement": "The C++ type chosen for a channel can hold every value that the suite has on the channel.", "quantifier": "every validated suite, every transition of every machine", "why_tests_cant": "unbounded suites; the type is merged over all tests", "anchors": ["internal/gen/cpp/func.go:StdType", "internal/stm/builder.go:unifyTypes"]}
{"id": "C80", "title": "Every value is written as a literal for it", "statement": "The C++ literal written for a value stands for exactly that value.", "quantifier": "every value", "why_tests_cant": "infinitely many values", "anchors": ["internal/gen/cpp/func.go:Value", "internal/testlang/value/value.go"]}
{"id": "C81", "title": "The Makefile builds every test", "statement": "The generated Makefile is understood by make as intended: its default target makes the output directory and then every test; each test is compiled from exactly its own main.cpp, the runtime, and the conversion code if there are conversions; no target is made twice.", "quantifier": "every set of test names and every configuration", "why_tests_cant": "unbounded suites and arbitrary test names; make's reading of the text is involved", "anchors": ["internal/gen/makefile/embed/templates/Makefile.tmpl", "internal/gen/makefile/makefile.go:Generate"]}
{"id": "C82", "title": "Build files refer only to files that are there", "statement": "After a successful generation every source file and header that the Makefile, the CMake files and the generated programs refer to is found where they look for it.", "quantifier": "every configuration, suite and initial file system", "why_tests_cant": "unbounded suites, path arithmetic across four generators", "anchors": ["internal/gen/makefile/embed/templates/Makefile.tmpl", "internal/gen/catkin/embed/templates/CMakeLists.txt.tmpl", "internal/gen/cpp/embed/templates/base/includes.cpp.tmpl", "internal/gen/cpp/cpp.go:Generate,Dirs"]}
{"id": "C83", "title": "Packages of a suite can be built together", "statement": "The catkin packages of a suite have different names and define different build targets.", "quantifier": "every suite and every package configuration", "why_tests_cant": "arbitrary names and placeholders", "anchors": ["internal/gen/catkin/catkin.go:Generate", "internal/gen/config/catkin/package.go:Expand", "internal/gen/catkin/embed/templates/CMakeLists.txt.tmpl"]}
{"id": "C84", "title": "Bad input is refused and nothing is written", "statement": "rtcg-read-traces and rtcg-make-stms write to standard output, and exit with 0, exactly when their argument names a readable input that is a good traces file or valid suite (whose result can be written, C87); otherwise they write nothing at all. rtcg-gen exits with 0 only if arguments, suite and configuration are all good.", "quantifier": "every command line, file system and standard input", "why_tests_cant": "unbounded inputs; any of the steps may fail", "anchors": ["cmd/rtcg-read-traces/main.go:run", "cmd/rtcg-make-stms/main.go:run", "cmd/rtcg-gen/main.go:run", "internal/cli/cli.go"]}
{"id": "C85", "title": "What is written is JSON and is read back", "statement": "Everything the programs write is JSON by RFC 8259, standing for the suite they made, and reading it back (whatever comes after it) gives that same value: no character of a name or value is lost or changed by quoting.", "quantifier": "every JSON value, and every output of the programs", "why_tests_cant": "unbounded values, all characters", "anchors": ["internal/serial/serial.go:ReadJSON,WriteJSON"]}
{"id": "C86", "title": "Only JSON is accepted", "statement": "A program reading a suite accepts its input exactly if it is one JSON text (RFC 8259) with white space around it, and takes it for the one value it stands for.", "quantifier": "every text", "why_tests_cant": "infinitely many texts", "anchors": ["internal/serial/serial.go:ReadJSON,WriteJSON"]}
{"id": "C87", "title": "Every good traces file goes through", "statement": "rtcg-read-traces succeeds on every traces file that it can read, however long its traces.", "quantifier": "every traces file", "why_tests_cant": "unbounded trace lengths; the failure is in a limit on the nesting of the output", "anchors": ["cmd/rtcg-read-traces/main.go:run", "internal/serial/serial.go:ReadJSON,WriteJSON", "internal/trace/expand.go:Expand"]}
{"id": "C88", "title": "A failed generation keeps what was there", "statement": "If rtcg-gen fails because of its arguments, its suite or its configuration, it has changed no file.", "quantifier": "every command line, file system and standard input", "why_tests_cant": "any of the steps may fail, from any state of the file system", "anchors": ["cmd/rtcg-gen/main.go:run", "internal/gen/config/config.go:Load"]}
{"id": "C89", "title": "Configuration files name their directory or are in it", "statement": "Conversion code is looked for in the directory the configuration names, or if it names none, in the directory the configuration file is in, whichever way the path to it is written.", "quantifier": "every path, working directory and file system", "why_tests_cant": "arbitrary paths with dots and slashes", "anchors": ["internal/gen/config/config.go:Load"]}
{"id": "C90", "title": "Only a dash means standard input", "statement": "A program reads standard input exactly if its input argument is - or left out, and otherwise the file of that name.", "quantifier": "every command line, file system and standard input", "why_tests_cant": "arbitrary paths", "anchors": ["internal/cli/cli.go:OpenFileOrStdin", "cmd/rtcg-gen/main.go:run"]}
{"id": "C91", "title": "The script succeeds exactly if all of it worked", "statement": "rtcg.sh ends with exit code 0 exactly if all three programs succeeded, each on the output of the one before; when traces or suite are refused, no file is changed; and on a good traces file it does succeed and each program generated fails exactly on its forbidden trace.", "quantifier": "every argument list, file system, standard input and traces file, every callback sequence", "why_tests_cant": "three programs joined by pipes, of which only the last one's exit code is seen", "anchors": ["rtcg.sh", "cmd/rtcg-read-traces/main.go", "cmd/rtcg-make-stms/main.go", "cmd/rtcg-gen/main.go"]}
{"id": "C92", "title": "Flags are understood as described", "statement": "rtcg-gen takes its flags with one or two dashes, before all other arguments, in any order and number, the last of each kind deciding; everything after them, and everything after --, is an argument.", "quantifier": "every argument list", "why_tests_cant": "unbounded argument lists", "anchors": ["cmd/rtcg-gen/main.go:parseArgs"]}
{"id": "C93", "title": "A configuration file is read exactly as it is written", "statement": "rtcg-gen takes a configuration file for the one configuration that it says as an XML document (elements, attributes, entities, CDATA, comments), and refuses every other text with an error, without crashing.", "quantifier": "every text", "why_tests_cant": "infinitely many texts; only a few files in testdata", "anchors": ["internal/gen/config/config.go:Load,Config", "internal/gen/config/cpp/cpp.go:Config,Include,Channel", "internal/gen/config/catkin/package.go:Package,Write"]}
{"id": "C94", "title": "Comments, unknown elements and order make no difference", "statement": "A configuration means the same with comments, processing instructions, unknown elements or attributes put in anywhere, with elements of different names in another order, and whatever comes after the root element.", "quantifier": "every document, every place in it, at any depth", "why_tests_cant": "all documents and all places", "anchors": ["internal/gen/config/config.go:Load,Config", "internal/gen/config/cpp/cpp.go:Config,Include,Channel"]}
{"id": "C95", "title": "Which configurations can be written", "statement": "A configuration can be written as a file exactly if its texts have only characters that XML allows, its variants are known and its package formats are 64-bit.", "quantifier": "every configuration", "why_tests_cant": "all configurations and all characters", "anchors": ["internal/gen/config/config.go:Load,Config", "internal/gen/config/cpp/cpp.go:Config,Include,Channel", "internal/gen/config/catkin/package.go:Package,Write"]}
{"id": "C96", "title": "package.xml says the package", "statement": "package.xml is a well-formed XML document that says exactly the package it was written for, whatever markup characters are in its texts; characters that XML cannot write become U+FFFD.", "quantifier": "every package", "why_tests_cant": "arbitrary texts, to be quoted", "anchors": ["internal/gen/config/catkin/package.go:Package,Write"]}
{"id": "C97", "title": "Every generated package.xml says the package of its test", "statement": "After a successful generation each test has, wherever Catkin is configured, a package.xml that is an XML document for the configured package, filled in and expanded with the name of that test only.", "quantifier": "every configuration file, suite and file system", "why_tests_cant": "unbounded suites; configuration is shared between tests", "anchors": ["internal/gen/catkin/catkin.go:Generate,generateTest", "internal/gen/config/catkin/package.go:Package,Write", "internal/gen/config/config.go:Load,Config"]}
{"id": "C98", "title": "CMakeLists.txt builds the test", "statement": "CMake understands the generated CMakeLists.txt as intended: a project named after the package, needing what the package depends on, with one program, made from exactly the test's main.cpp, the runtime and the conversion code, all of which are found where it says.", "quantifier": "every package, test name, suite and value of CMake's variables", "why_tests_cant": "arbitrary names; CMake's reading of the text is involved", "anchors": ["internal/gen/catkin/embed/templates/CMakeLists.txt.tmpl", "internal/gen/catkin/catkin.go:Generate,generateTest"]}
{"id": "C99", "title": "CMakeLists.txt needs only what package.xml declares", "statement": "Every catkin package that the CMakeLists.txt of a test needs or passes on is a dependency declared in its package.xml, and every dependency declared there is needed.", "quantifier": "every package configuration and test name", "why_tests_cant": "two generated files must agree for every configuration", "anchors": ["internal/gen/catkin/embed/templates/CMakeLists.txt.tmpl", "internal/gen/config/catkin/package.go:Package,Write", "internal/gen/catkin/catkin.go:generateTest"]}
{"id": "C100", "title": "The programs never crash", "statement": "Whatever its input, arguments and files, each of the programs ends with success or an error message, never with a panic; nor does any of them in a run of rtcg.sh.", "quantifier": "every command line, file system and standard input", "why_tests_cant": "infinitely many inputs; crashes hide in inputs nobody wrote a test for", "anchors": ["cmd/rtcg-read-traces/main.go:run", "cmd/rtcg-make-stms/main.go:run", "cmd/rtcg-gen/main.go:run", "internal/validate/validate.go:Full", "internal/stm/stm.go"]}
{"id": "C101", "title": "A JSON suite is read exactly as it says", "statement": "A suite of tests or of machines in which no field is given twice is accepted exactly if each known field, found by its name in any case and whatever the order, holds a value of its kind or null; and what is read is just that, with the defaults for fields left out and unknown fields ignored.", "quantifier": "every JSON value, nested to any depth", "why_tests_cant": "infinitely many documents, fields in any order and case", "anchors": ["internal/serial/serial.go:ReadJSON,WriteJSON", "internal/testlang/node.go:Node", "internal/stm/suite.go:Suite,ReadSuite", "internal/stm/state.go:State", "internal/stm/verdict/verdict.go:UnmarshalJSON", "internal/structure/set.go:UnmarshalJSON"]}
{"id": "C102", "title": "main.cpp is the text described", "statement": "The templates for main.cpp, parsed and executed as text/template does (white space trimming, nested templates, maps in key order), produce for every test, machine and configuration exactly the C++ text that the specification spells out: a member, a case and an entry function for each state, a setter for each test, a callback for each output channel, each with its names and values, and nothing else.", "quantifier": "every test name, machine, context and date, both variants", "why_tests_cant": "infinitely many machines; a template error shows only on inputs that reach it", "anchors": ["internal/gen/templating/set.go:Generate,BuildFiles", "internal/gen/cpp/template.go", "internal/gen/cpp/embed/templates/base/base.cpp.tmpl", "internal/gen/cpp/embed/templates/base/stm.cpp.tmpl", "internal/gen/cpp/embed/templates/base/state_entry.cpp.tmpl", "internal/gen/cpp/embed/templates/ros/main.cpp.tmpl", "internal/gen/cpp/embed/templates/animate/main_body.cpp.tmpl"]}
{"id": "C103", "title": "convert.h is the text described", "statement": "The templates for convert.h produce for every set of channel types exactly the text that the specification spells out: a value type, a message type and two conversion functions for each channel, declared only where the user overrides the type.", "quantifier": "every context in which the types of the channels are known, both variants", "why_tests_cant": "infinitely many contexts", "anchors": ["internal/gen/templating/set.go:Generate,BuildFiles", "internal/gen/cpp/template.go", "internal/gen/cpp/embed/templates/base/convert/convert_base.h.tmpl", "internal/gen/cpp/embed/templates/ros/convert/convert.h.tmpl", "internal/gen/cpp/embed/templates/animate/convert/convert.h.tmpl"]}
{"id": "C104", "title": "Templates fail only where there is nothing to write", "statement": "Executing a template fails, with an error and not a crash, exactly without a first state, at an input state without transitions, or at a channel whose type is not known; the templates of the Makefile and CMakeLists.txt never fail, and produce the texts that the properties of those files are about.", "quantifier": "every content of a generated file", "why_tests_cant": "infinitely many contexts; the failures are in text/template's run-time checks", "anchors": ["internal/gen/templating/set.go:Generate,BuildFiles", "internal/gen/templating/templating.go:CreateFile", "internal/gen/cpp/embed/templates/base/in_callback.cpp.tmpl", "internal/gen/makefile/embed/templates/Makefile.tmpl", "internal/gen/catkin/embed/templates/CMakeLists.txt.tmpl"]}
{"id": "C105", "title": "The files on disk hold these texts", "statement": "After rtcg-gen has succeeded on any suite it could read, every main.cpp, convert.h, Makefile and CMakeLists.txt holds, character by character, the text described for it, and the runtime is the embedded one.", "quantifier": "every command line, file system, configuration file and suite", "why_tests_cant": "unbounded suites; the whole path from command line to file contents", "anchors": ["cmd/rtcg-gen/main.go:run", "internal/gen/gen.go:Generate", "internal/gen/templating/set.go:Generate,BuildFiles", "internal/gen/cpp/copy.go:copyPrelude"]}
{"id": "C106", "title": "The generated text is C++", "statement": "For every test whose channels, values and tests have names that can be written in C++ and do not clash, the text of main.cpp can be read as C++ (token by token, by its grammar): braces balance, every method that a class declares is defined exactly once with the types declared, nothing else is defined but the function naming states and main, and it makes one program together with the runtime.", "quantifier": "every suite made by rtcg-make-stms, every well-named test, configuration and date, both variants", "why_tests_cant": "infinitely many machines and names; no unit test compiles the output", "anchors": ["internal/gen/cpp/embed/templates/base/base.cpp.tmpl", "internal/gen/cpp/embed/templates/base/stm.cpp.tmpl", "internal/gen/cpp/embed/templates/base/state_entry.cpp.tmpl", "internal/gen/cpp/embed/templates/ros/main.cpp.tmpl", "internal/gen/cpp/embed/templates/animate/main_body.cpp.tmpl", "internal/gen/cpp/embed/prelude/rtcg.h", "internal/gen/cpp/embed/prelude/rtcg.cpp"]}
{"id": "C107", "title": "A callback of the generated text does what the machine says", "statement": "Called on an object in any configuration, the method of the generated program for a timeout, start, acceptance or output returns and leaves the object in the configuration that one step of the state machine gives, sending exactly the inputs of that step and shutting ROS down exactly when the test ends.", "quantifier": "every well-named test, reachable or unreachable configuration, callback and library behaviour, both variants", "why_tests_cant": "unbounded machines; the meaning of the generated code is involved", "anchors": ["internal/gen/cpp/embed/templates/base/stm.cpp.tmpl", "internal/gen/cpp/embed/templates/base/state_entry.cpp.tmpl", "internal/gen/cpp/embed/templates/base/verdict.cpp.tmpl", "internal/gen/cpp/embed/templates/base/out_callback.cpp.tmpl", "internal/gen/cpp/embed/prelude/rtcg.h"]}
{"id": "C108", "title": "The generated ROS program runs the machine", "statement": "The generated ROS program, driven by any sequence of callbacks, subscribes to every output by its topic, waits while the test goes on, and else ends with exit code 1 exactly on FAIL, having reported status and outcomes and sent the inputs that running the machine gives.", "quantifier": "every well-named test, sequence of callbacks, and library behaviour", "why_tests_cant": "unbounded schedules; the whole program from main on", "anchors": ["internal/gen/cpp/embed/templates/ros/main.cpp.tmpl", "internal/gen/cpp/embed/templates/base/entry.cpp.tmpl", "internal/gen/cpp/embed/templates/base/stm.cpp.tmpl", "internal/gen/cpp/embed/templates/base/state_entry.cpp.tmpl"]}
{"id": "C109", "title": "The generated animation runs the machine", "statement": "The generated animation, given any words typed (commands, outputs with values of their types, anything else), does what the machine does with the callbacks typed, waits for more while the test goes on, and else ends with the exit code of the machine, having reported status and outcomes and said the inputs sent; it reads nothing more.", "quantifier": "every well-named test, sequence of words, and conversions that keep the values", "why_tests_cant": "unbounded inputs; the whole program from main on", "anchors": ["internal/gen/cpp/embed/templates/animate/main.cpp.tmpl", "internal/gen/cpp/embed/templates/animate/main_body.cpp.tmpl", "internal/gen/cpp/embed/templates/base/entry.cpp.tmpl", "internal/gen/cpp/embed/templates/base/stm.cpp.tmpl", "internal/gen/cpp/embed/templates/base/state_entry.cpp.tmpl"]}
{"id": "C110", "title": "A good traces file becomes programs that find the traces", "statement": "When rtcg.sh has succeeded on a good traces file, the files in the output directory make, for every trace and every configured variant, a C++ program that, driven by any callbacks (or by any words typed), ends with exit code 1 exactly when what it sees begins with the whole trace, waits exactly while it is a proper part of the trace, and sends the inputs of the trace in order, each once and in time.", "quantifier": "every traces file with names that can be written in C++, configuration, file system, callback sequence or typed input, and library behaviour", "why_tests_cant": "the whole path from the traces file to the behaviour of the generated text, with unbounded traces and schedules", "anchors": ["rtcg.sh", "cmd/rtcg-gen/main.go:run", "internal/gen/gen.go:Generate", "internal/gen/cpp/embed/templates/ros/main.cpp.tmpl", "internal/gen/cpp/embed/templates/animate/main_body.cpp.tmpl", "internal/gen/cpp/embed/templates/base/stm.cpp.tmpl", "internal/gen/cpp/embed/templates/base/state_entry.cpp.tmpl", "internal/trace/expand.go:Expand", "internal/stm/builder.go"]}
{"id": "C111", "title": "How the test of a tree ends", "statement": "Whatever callbacks come, the test of a tree goes down the tree as they lead, and its status, verdicts and inputs sent are those of the place it gets to: FAIL exactly where some test fails, waiting exactly while nothing has come that the place does not go on with, and otherwise an ending that says what came (a timeout, an output off the script, or an acknowledgement out of place); where no two continuations look alike, this determines the status.", "quantifier": "every tree with the machine built from it, and every sequence of callbacks once the start delay is over", "why_tests_cant": "unbounded trees and schedules, with several tests sharing a program", "anchors": ["internal/gen/cpp/embed/templates/base/stm.cpp.tmpl", "internal/gen/cpp/embed/templates/base/state_entry.cpp.tmpl", "internal/gen/cpp/embed/prelude/rtcg.cpp", "internal/stm/builder.go"]}
{"id": "C112", "title": "A suite of trees becomes programs that judge its tests", "statement": "When rtcg-make-stms has succeeded on a suite of trees and rtcg-gen on its output, the files in the output directory make, for every tree with names for C++, a program that, driven by any callbacks or any words typed, waits while its test goes on and else ends with the exit code of its status; it says FAIL only after a path of the tree to a node where some test fails, and the verdicts it reports and the inputs it sends are those of the way that the callbacks lead. Both programs do succeed on well-formed trees whose channels have one kind of values.", "quantifier": "every suite of trees, configuration, file system, callback sequence and library behaviour", "why_tests_cant": "the whole path from a JSON suite to the behaviour of the generated text, with unbounded trees and schedules", "anchors": ["cmd/rtcg-make-stms/main.go:run", "cmd/rtcg-gen/main.go:run", "internal/gen/gen.go:Generate", "internal/gen/cpp/embed/templates/ros/main.cpp.tmpl", "internal/gen/cpp/embed/templates/animate/main_body.cpp.tmpl", "internal/gen/cpp/embed/templates/base/stm.cpp.tmpl", "internal/gen/cpp/embed/templates/base/state_entry.cpp.tmpl", "internal/stm/builder.go"]}
{"id": "C113", "title": "What is written does not depend on the order of maps", "statement": "Go visits maps in an order that it leaves open. Whatever orders a run takes, rtcg-read-traces writes the same text; rtcg-make-stms succeeds or fails alike, and what it writes differs only in the order in which machines list their tests, so that for suites with one test per tree, such as those of rtcg-read-traces, it writes the same text.", "quantifier": "every command line, file and standard input, and every order at every range over a map", "why_tests_cant": "the order is random, and a test sees a few of exponentially many", "anchors": ["internal/structure/map.go:OverMap,TryOverMapValues", "internal/structure/set.go:Values,MarshalJSON", "internal/stm/builder.go:BuildMany,unifyTypes", "internal/stm/verdict/verdict.go:MarshalJSON", "internal/trace/expand.go:ExpandAll"]}
{"id": "C114", "title": "What is generated does not depend on the order of maps", "statement": "Whatever the orders in which rtcg-gen visits maps, it succeeds or fails alike, and if it succeeds it leaves the same directories and the same files with the same lines; only the main.cpp of a machine of two or more tests may have some of its lines in another order. So for a good traces file rtcg.sh leaves the same texts whatever the orders in its three programs.", "quantifier": "every command line, file system and suite of plainly named tests, and every order at every range over a map in any of the programs", "why_tests_cant": "the order is random, and a test sees a few of exponentially many", "anchors": ["internal/gen/config/cpp/context.go:Process", "internal/gen/cpp/cpp.go:Dirs,generateTests", "internal/gen/catkin/catkin.go:Generate", "internal/gen/makefile/makefile.go:Generate", "internal/gen/gencommon/context.go:makeTransitions", "rtcg.sh"]}
{"id": "C115", "title": "convert.h makes the program whole", "statement": "For every suite that rtcg-make-stms gives, with channels called by words that differ in more than the case of their first letter, convert.h can be read as C++: it defines the two conversions of every channel that no type is configured for, declares those of the others, and no function is there twice. With types configured for all channels the program that all four files on disk make is the one that C110 and C112 are about. And for an animation, whatever is configured, the program with convert.h finds the traces and judges the tests as C110 and C112 say, taking and sending the values of channels without a type as they are.", "quantifier": "every suite, configuration, test, typed input and library behaviour; for programs with default conversions, the variant animate", "why_tests_cant": "unbounded suites and inputs; the meaning of four generated texts together is involved", "anchors": ["internal/gen/cpp/embed/templates/base/convert/convert_base.h.tmpl", "internal/gen/cpp/embed/templates/animate/convert/convert.h.tmpl", "internal/gen/cpp/embed/templates/ros/convert/convert.h.tmpl", "internal/gen/config/cpp/context.go:Process", "internal/gen/cpp/embed/prelude/rtcg.h", "internal/gen/cpp/embed/prelude/rtcg.cpp"]}
{"id": "C116", "title": "Descriptions tell things apart", "statement": "The description (String) of a trace, as reports of failed tests show it, determines the trace: its name, its prefix and its forbidden event with channel, direction and value. Two traces read from traces files are described alike only if they are the same, whatever commas, brackets and quotes are in their names and values, unless a channel has no name or a trace's name begins with <, where they need not be. Likewise descriptions of values, of events and, for test names without colons, of verdicts.", "quantifier": "every pair of values, events, traces and verdicts; every two traces files", "why_tests_cant": "infinitely many texts; the ambiguities are in characters nobody tests", "anchors": ["internal/trace/trace.go:String", "internal/testlang/event.go:String", "internal/testlang/value/value.go:String", "internal/testlang/value/enum.go:String", "internal/testlang/channel/channel.go:String", "internal/stm/verdict/verdict.go:String"]}
{"id": "C117", "title": "A compiler sees the program meant", "statement": "Preprocessed as a C++ compiler does it (files included where they are named, include guards, the words that convert.h defines replaced by the types they stand for), main.cpp with what it includes is convert.h and main.cpp as read on their own, with the types of the channels in place of the words; linked with the runtime it does whatever the texts read without a preprocessor do (C110, C112, C115). So the animations, and the ROS programs with types configured, as a compiler sees them, find the traces and judge the tests. No word of a program is replaced by accident unless a test is called by such a word. Both headers may be included more than once: included again they give nothing and define nothing.", "quantifier": "every suite, configuration, test and library behaviour, both variants; typed words and callback sequences of any length", "why_tests_cant": "unbounded suites; textual replacement acts on every word of every generated text", "anchors": ["internal/gen/cpp/embed/templates/base/convert/convert_base.h.tmpl", "internal/gen/cpp/embed/templates/base/includes.cpp.tmpl", "internal/gen/cpp/embed/templates/ros/convert/convert.h.tmpl", "internal/gen/cpp/embed/templates/animate/convert/convert.h.tmpl", "internal/gen/cpp/embed/prelude/rtcg.h", "internal/gen/cpp/embed/prelude/rtcg.cpp", "internal/gen/cpp/cpp.go:Generate"]}
{"id": "C118", "title": "Conversions are right about types", "statement": "Every conversion that convert.h defines by default returns, and sends, a value of the type that it declares, as the rules of C++ for copying, numbers, strings and members ask; so convert.h compiles for every suite. (False of the code: for ROS only channels of constants have such conversions, and in the animation channels that carry no value do not.)", "quantifier": "every suite, configuration and channel, both variants", "why_tests_cant": "types are found from infinitely many suites; no unit test compiles the output", "anchors": ["internal/gen/cpp/embed/templates/animate/convert/convert.h.tmpl", "internal/gen/cpp/embed/templates/ros/convert/convert.h.tmpl", "internal/gen/cpp/embed/templates/base/convert/convert_base.h.tmpl", "internal/gen/config/cpp/context.go:Process", "internal/gen/cpp/func.go:Funcs", "internal/testlang/rstype/rstype.go"]}
{"id": "C119", "title": "Default conversions undo each other", "statement": "For every channel that no type is configured for and whose values have a type that the default conversions are right for, convert.h defines a function that makes a message of a value and one that makes a value of a message, and the second, given what the first returns as the variant hands it over (in ROS by a pointer), gives the value back: every number, and every text (in ROS up to its first zero character).", "quantifier": "every suite, configuration, channel and value, both variants", "why_tests_cant": "infinitely many values; no unit test runs the output", "anchors": ["internal/gen/cpp/embed/templates/animate/convert/convert.h.tmpl", "internal/gen/cpp/embed/templates/ros/convert/convert.h.tmpl", "internal/gen/cpp/embed/templates/base/convert/convert_base.h.tmpl", "internal/gen/cpp/func.go:ConvertTo,ConvertFrom"]}
{"id": "C120", "title": "An ill-formed test is refused for its first fault", "statement": "If a test is ill-formed, validation reports the fault (one of ten, in a fixed order of precedence) of its first ill-formed node, the root first, then in pre-order; there is always exactly one such report. A suite is refused for the fault of one of its ill-formed tests, each of which may be the one. Collapsing a test into a trace reports the first fault along the branch, which may also be that the branch forks or stops.", "quantifier": "every test tree and suite, every order of visiting the suite", "why_tests_cant": "trees are unbounded, faults combine", "anchors": ["internal/validate/validate.go:Full,OneNext", "internal/validate/node.go", "internal/validate/errors.go", "internal/validate/suite.go:FullSuite", "internal/testlang/walk.go:Walk", "internal/trace/collapse.go:Collapse"]}
{"id": "C121", "title": "Adding traces leaves other traces' programs alone", "statement": "The program of a trace depends on the trace and its name, and, for animations, on the types of its outputs' channels only: two traces files, with the same configuration and date, give the same main.cpp, package.xml and CMakeLists.txt to every trace that both have under one name. In particular traces can be appended to a file: those that were there keep their names and programs, an animation too if the new traces do not widen the types of its outputs' channels.", "quantifier": "every two good traces files, every configuration, both variants", "why_tests_cant": "relates two runs over infinitely many files", "anchors": ["internal/gen/cpp/embed/prelude/rtcg.h", "internal/trace/trace.go", "internal/gen/cpp/embed/templates/animate/main.cpp.tmpl", "internal/gen/cpp/embed/templates/ros/main.cpp.tmpl"]}
