{
 "C08": "False of the code: a text without value field leaves the receiver's old value. Refuted by witness; partial theorem gives the exact dependence.",
 "C20": "False of the code for named traces: Collapse does not restore Name. The partial theorem shows the round trip holds iff every trace read is unnamed; a witness refutes the unconditional claim.",
 "C21": "False of the code: Collapse also accepts trees that no forbidden trace expands to (witness). C21_collapse_ok_iff characterises acceptance exactly; the partial theorem gives the inverse under the missing shape condition.",
 "C26": "False of the code: a null test in a suite is a nil pointer and makes validation panic (witness). The partial theorem covers every suite without null tests.",
 "C50": "False of the code: convert.h is always written to src/convert, which is made only when conversion code is copied (witness C50_false). The partial theorem says exactly when generation from an empty output succeeds, for every processing order.",
 "C52": "False of the code: only spellings of '.' are refused; '..', the absolute path of the working directory and '/' are not (witness C52_false). C52_when_removed is the exact condition; the partial theorem covers output paths below the working directory.",
 "C65": "False of the code: with the configuration directory as output directory the conversion code is truncated (witness C65_false). The partial theorem covers conversion code outside the output directory.",
 "C56": "False of the code (C56_false): an event without a value makes rtcg-make-stms fail when writing, because omitempty does not apply to structs. Proved: it writes exactly when types are consistent and every event has a value, with the exact error otherwise, and the output reads back as the machines built.",
 "C60": "False of the code: entry functions assign the status unconditionally, so an expected event delivered after the end sets the test running again (C60_false), even losing a FAIL in merged trees (C60_fail_lost). The partial theorems say exactly which late callbacks can change the status and that FAIL is final for single traces. C60_run covers drivers that deliver nothing after the end.",
 "C62": "False for some schedules (C62_false): an acknowledgement before the start delay makes the test skip its first input. C62_unstarted gives what is sent then; the partial theorem covers all other schedules; C62_animate is the full claim for the animate driver, which does not let that happen.",
 "C69": "The determinism condition is needed (C69_needs_deterministic); validation does not check it.",
 "C75": "False of the code (C75_false): a channel called 'timeout' declares timeoutCallback twice. The partial theorem is the exact condition for distinct members, in terms of channel names.",
 "C76": "False of the code (C76_false): a test called 'dump' collides with the member function dump. The partial theorem is the exact condition on test names.",
 "C77": "False of the code (C77_false): channels 'a' and 'A' declare the same conversion functions. The partial theorem is the exact condition for ASCII names.",
 "C78": "False of the code (C78_false): 'aB' and 'a_b' share a topic and a variable. The partial theorems are the exact conditions.",
 "C79": "False of the code (C79_false): integers are 64-bit in tests and 32-bit in C++. The partial theorem gives the type of every channel exactly, and exactly which values fit.",
 "C80": "False of the code (C80_false): quotes and backslashes in enumeration values are not escaped, and -2^63 is no C++ integer literal. The partial theorem is the exact condition, for any set of escape sequences longer than what they stand for.",
 "C81": "False of the code for test names with blanks, colons and the like (C81_false), which traces files may give. The partial theorem covers all names free of characters special to make or the shell; C81_names_safe shows that synthesised names and safe given names are among them.",
 "C82": "False of the code (C82_false): CMakeLists.txt always names convert.cpp and main.cpp always includes convert.h, also without conversions. C82_makefile holds always; the partial theorem covers configurations that need conversions, which by C82_from_empty is every successful generation from an empty place without a test called convert.",
 "C83": "Package names are distinct exactly when the configured name has the placeholder (C83_package_names). Targets are not: every package defines the libraries convert and rtcg (C83_false); the partial theorem is the exact condition.",
 "C86": "False of the code (C86_false): anything may follow the value, and texts nested deeper than 10000 are refused. The partial theorem is the exact condition for all values but numbers, which no program expects at the top.",
 "C87": "False of the code (C87_false): a good traces file with 4997 events before the forbidden one is refused by encoding/json's limit on nesting. The partial theorem is the exact condition.",
 "C88": "False of the code (C88_false): -clean removes the output before the configuration is looked at. The partial theorem covers all other cases.",
 "C90": "True of rtcg-read-traces and rtcg-make-stms (C90_stdin); rtcg-gen cleans the path first, so that a path like ./- means standard input too (C90_false). C90_gen_partial is the exact condition.",
 "C91": "False of the code for a first argument that asks for help (C91_false). The partial theorem covers first arguments that do not start with a dash; C91_refused covers all.",
 "C93": "Model of encoding/xml (Go 1.20, strict decoder) proved equal to a grammar after XML 1.0; only the tables of non-ASCII name characters are a parameter.",
 "C94": "Change relations in Spec/Config.lean. A misspelt element is ignored without an error (example).",
 "C95": "",
 "C96": "",
 "C97": "",
 "C98": "Proved for package names and dependencies made of letters, digits, _ . + - (dependencies not beginning with a capital letter), which is what catkin allows; C98_false shows test names for which CMake refuses the file. Commands that catkin and CMake define are taken at their documented meaning (Spec/CMake.lean).",
 "C99": "The converse half is proved; the claim holds exactly if the configured package depends on roscpp and std_msgs, and C99_false shows that with no package configured it fails.",
 "C100": "False of the code: a test that is null makes rtcg-make-stms panic (C100_false_make_stms), a machine that is null makes rtcg-gen panic (C100_false_gen). The partial theorems show that these are the only causes; C100_read_traces and C100_script hold in full.",
 "C101": "Field names match as in encoding/json: any case, with the long s and the Kelvin sign.",
 "C102": "The templates are copied verbatim into Model/TemplateFiles.lean (tools/templates.py --check compares them with /repo); the model of text/template covers the syntax they use.",
 "C103": "As C102.",
 "C105": "For test names that are plain path components and configurations with distinct variants.",
 "C106": "Lexer and grammar in Spec/CppLex.lean, Spec/CppSyntax.lean (the part of C++ that the templates use; the preprocessor is not modelled). C106_needs_values shows that an event without a value gives a text that is not C++.",
 "C107": "Interpreter in Spec/CppRun.lean: values are not typed beforehand, numbers are unbounded, library functions do what the parameter Lib says. This ties the hand-translated Model/Harness.lean to the generated text.",
 "C108": "As C107. ROS calls callbacks one after the other (ros::spin, one thread).",
 "C109": "As C107. What is typed is a list of words.",
 "C110": "End to end on the texts on disk: script, files, lexer, parser and interpreter. Callbacks come one after the other; the libraries are a parameter (TraceLib says what they must declare).",
 "C111": "The start delay must be over first if the tree starts with an input. Several look-alike continuations: the way is some way that the callbacks lead; without them it is unique (C111_determined).",
 "C112": "End to end on the texts on disk, as C110 but for trees of any shape (several tests in one program); TreeNames and TreeLib say what names and libraries must provide.",
 "C113": "The programs are restated as relations that allow every order at every range over a map (Model/Order). C113_two_texts and C113_two_exit_codes show that no more holds: with two tests in a tree there are two possible texts, and a null test beside an invalid one gives exit code 1 or 2 depending on the order.",
 "C114": "rtcg-gen and rtcg.sh restated as relations that allow every order at every range over a map (Model/Order). PlainRun: plain names, distinct variants, conversion code outside the output directory. C114_two_texts and C114_same_file show that no more holds: with two tests in a machine the text of main.cpp depends on the order, and if two names denote one file the order decides which test it is for. What a failed run leaves may depend on the order.",
 "C115": "Programs are those of the texts on disk, with convert.h as a fourth file. Default conversions of the variant ros (which use members of message types) are read as C++ but not run; with types configured for all channels both variants are covered. Directives (the #define of value and message types) are passed over here; C117 follows them.",
 "C116": "strconv.Quote is modelled from its source; the table of printable characters is a parameter. C116_nameless and C116_angle show that the two exceptions are needed. The descriptions of transitions and states are modelled (Model/Show) but nothing is claimed of them.",
 "C117": "Function-like macros and directives other than #include, #define, #ifndef and #endif are not modelled (the generated texts use no others). Files of libraries, and what the configuration includes, are taken to define no words. The configured types must be types, must not use words that the generated files define, and for ROS must be names of classes; a test must not be called by such a word (it would be replaced; C117_replaced shows that this is needed). C117_again and C117_again_rtcg: the include guards, from any state of the preprocessor in which text is kept.",
 "C118": "False of the code (C118_false): the default conversions of ROS send and take std_msgs::String whatever the channel's type is. C118_typed_partial says exactly when convert.h is right about types: for the animation all channels without a configured type must carry values, for ROS they must carry constants; C118_traces_partial and C118_trees_partial say it of the files on disk in terms of the traces and trees read. The rules for types cover what these functions use: copies (pointers without losing const), conversions of numbers, strings from characters, std_msgs::String and its ConstPtr; whether std_msgs is included is not part of it.",
 "C119": "The values of C++ that conversions work with are strings, characters (which end before a zero), numbers (unbounded), std_msgs::String and pointers to it; the functions are run on their syntax trees as read from convert.h (Spec/CppValues), which is apart from the interpreter of C107-C117, where the default conversions of ROS are not run. C119_zero shows that the exception for zero characters is needed. Which types the conversions are right for is C118; that no function is there twice is C115.",
 "C120": "Proved. The reasons are the sentinel errors of validate/errors.go; the pointers that the messages also print are not modelled.",
 "C121": "Both theorems are about whole runs of the script (traces file to disk). The date is the text layer's, so the same in both runs; convert.h, Makefiles and launch files are about all tests and do change. Hypotheses are those of C91/C110: events have channels and values, no conflicting types, names are plain."
}