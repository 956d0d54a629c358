import Verif.Model.TemplateData

/-
The parsed templates of /repo: what `Tmpl.parseFiles` makes of the files in Model/TemplateFiles.lean, which is
proved at the end.  Written by tools/trees.txt.
-/

namespace Rtcg

namespace Tmpl

namespace Trees

/-- The template base.cpp.tmpl -/
def baseBaseCpp : Node :=
  (.text c!"//\n// Test "
  (.action (.fld .dot c!"Name")
  (.text c!"\n//\n// Test autogenerated by rtcg on "
  (.action (.fld .dot c!"Date")
  (.text c!"\n//\n\n"
  (.template c!"includes.cpp.tmpl" (some .dot)
  (.text c!"\n\n//\n// CONSTANTS\n//\n"
  (.template c!"constants" (some .dot)
  (.text c!"\n\n\n//\n// TEST VERDICTS\n//\n// In non-factorised tests, there will usually only be one test verdict;\n// factorised tests may have multiple.\n//\n"
  (.template c!"verdict.cpp.tmpl" (some (.fld (.fld (.fld .dot c!"Stm") c!"Tests") c!"Values"))
  (.text c!"\n\n\n//\n// STATES\n//\n// Every step in the test has a corresponding state in the test state machine.\n// For non-factorised tests, these relate directly to points on the trace.\n//\n"
  (.template c!"state_meta.cpp.tmpl" (some (.fld (.fld .dot c!"Stm") c!"States"))
  (.text c!"\n\n\n//\n// MAIN TEST CLASS\n//\n// Most of the working parts of the test are here.\n//\n"
  (.template c!"stm.cpp.tmpl" (some .dot)
  (.text c!"\n\n\n//\n// ENTRY POINT\n//\n"
  (.template c!"entry.cpp.tmpl" (some .dot)
  (.text c!"\n"
  .nil)))))))))))))))))

/-- The template constants -/
def animateConstants : Node :=
  (.text c!"\n// no constants defined"
  .nil)

/-- The template entry.cpp.tmpl -/
def baseEntryCpp : Node :=
  (.text c!"\nint main("
  (.template c!"main_args" (some .dot)
  (.text c!")\n{\n  // Initialisation"
  (.template c!"pre_init" (some .dot)
  (.text c!"\n\n  StateMachine stm {"
  (.template c!"stm_ctor_args" (some .dot)
  (.text c!"};"
  (.template c!"init" (some .dot)
  (.text c!"\n\n  // Test loop\n  "
  (.template c!"log" (some (.str c!"info"))
  (.text c!"\"Test "
  (.action (.fld .dot c!"Name")
  (.text c!" in main loop.\""
  (.template c!"end_log" none
  (.text c!"\n"
  (.template c!"main_body.cpp.tmpl" (some .dot)
  (.text c!"\n\n  auto status = stm.getStatus();\n  "
  (.template c!"log" (some (.str c!"info"))
  (.text c!"\"Test "
  (.action (.fld .dot c!"Name")
  (.text c!" finished: \" << status << \".\""
  (.template c!"end_log" none
  (.text c!"\n  stm.getVerdict().dump();"
  (.template c!"cleanup" (some .dot)
  (.text c!"\n\n  return rtcg::status::exitCode(status);\n}"
  .nil)))))))))))))))))))))))))

/-- The template main_args -/
def animateMainArgs : Node :=
  (.action (.str c!"")
  .nil)

/-- The template pre_init -/
def animatePreInit : Node :=
  .nil

/-- The template stm_ctor_args -/
def animateStmCtorArgs : Node :=
  .nil

/-- The template cleanup -/
def baseCleanup : Node :=
  .nil

/-- The template in_callback.cpp.tmpl -/
def baseInCallbackCpp : Node :=
  (.text c!"\n  switch (state_)\n  {"
  (.range [c!"s", c!"ts"] .dot
    (.text c!"\n  case "
    (.action (.ap (.fn c!"cppStateEnum") (.var c!"s"))
    (.text c!":\n    "
    (.template c!"log" (some (.str c!"info"))
    (.text c!"\"Accepted input on state "
    (.action (.var c!"s")
    (.text c!" as expected.\""
    (.template c!"end_log" none
    (.text c!"\n    "
    (.action (.ap (.fn c!"cppStateEntry") (.fld (.ap (.ap (.fn c!"index") (.var c!"ts")) (.num 0)) c!"Next"))
    (.text c!"();\n    break;"
    .nil)))))))))))
    .nil
  (.text c!"\n  default:\n    // We shouldn't be seeing an input acknowledgement in this state.\n    "
  (.template c!"log" (some (.str c!"error"))
  (.text c!"\"Accepted input in unexpected state\" << stateName()"
  (.template c!"end_log" none
  (.text c!"\n    end(rtcg::Status::BUG);\n  }\n"
  .nil)))))))

/-- The template includes.cpp.tmpl -/
def baseIncludesCpp : Node :=
  (.text c!"#include <string>"
  (.template c!"system_includes" (some .dot)
  (.range [] (.fld .dot c!"Includes")
    (.text c!"\n#include "
    (.ite (.fld .dot c!"IsSystem")
      (.text c!"<"
      .nil)
      (.text c!"\""
      .nil)
    (.action (.fld .dot c!"Src")
    (.ite (.fld .dot c!"IsSystem")
      (.text c!">"
      .nil)
      (.text c!"\""
      .nil)
    .nil))))
    .nil
  (.text c!"\n\n#include \"rtcg.h\"    // Helper definitions (compile with ../rtcg/rtcg.cpp)\n#include \"convert.h\" // Channel type definitions and conversion functions\n"
  .nil))))

/-- The template system_includes -/
def animateSystemIncludes : Node :=
  (.text c!"\n#include <iostream>"
  .nil)

/-- The template out_callback.cpp.tmpl -/
def baseOutCallbackCpp : Node :=
  (.text c!"\n  auto value = "
  (.action (.ap (.fn c!"cppConvertFrom") (.fld (.fld (.var c!"") c!"Channel") c!"Name"))
  (.text c!"(msg);\n\n  switch (state_)\n  {"
  (.range [c!"s", c!"ts"] (.fld .dot c!"States")
    (.text c!"\n  case "
    (.action (.ap (.fn c!"cppStateEnum") (.var c!"s"))
    (.text c!":"
    (.range [c!"i", c!"t"] (.var c!"ts")
      (.text c!"\n    "
      (.ite (.ap (.ap (.fn c!"ne") (.var c!"i")) (.num 0))
        (.text c!"else "
        .nil)
        .nil
      (.text c!"if ("
      (.decl c!"ty" (.fld (.fld (.var c!"t") c!"Value") c!"Type")
      (.ite (.fld (.var c!"ty") c!"IsEnum")
        (.text c!"value.compare(\""
        (.action (.fld (.fld (.var c!"t") c!"Value") c!"StringValue")
        (.text c!"\") == 0"
        .nil)))
        (.text c!"value == "
        (.action (.fld (.fld (.var c!"t") c!"Value") c!"StringValue")
        .nil))
      (.text c!")\n      "
      (.action (.ap (.fn c!"cppStateEntry") (.fld (.var c!"t") c!"Next"))
      (.text c!"();"
      .nil))))))))
      .nil
    (.text c!"\n    else\n    {\n      "
    (.template c!"log" (some (.str c!"info"))
    (.text c!"\"Unexpected value \" << value << \" for "
    (.action (.fld (.var c!"") c!"Channel")
    (.text c!" in state "
    (.action (.var c!"s")
    (.text c!".\""
    (.template c!"end_log" none
    (.text c!"\n      end(rtcg::Status::OFF_SCRIPT);\n    }\n    break;"
    .nil)))))))))))))
    .nil
  (.text c!"\n  default:\n    "
  (.template c!"log" (some (.str c!"info"))
  (.text c!"\"Output \" << value << \" on "
  (.action (.fld (.var c!"") c!"Channel")
  (.text c!" in unexpected state \" << stateName() << \".\""
  (.template c!"end_log" none
  (.text c!"\n    end(rtcg::Status::OFF_SCRIPT);\n  }\n"
  .nil)))))))))))

/-- The template state_entry.cpp.tmpl -/
def baseStateEntryCpp : Node :=
  (.text c!"\n  "
  (.template c!"log" (some (.str c!"info"))
  (.text c!"\"Entered state "
  (.action (.fld .dot c!"ID")
  (.text c!".\""
  (.template c!"end_log" none
  (.range [c!"t", c!"o"] (.fld .dot c!"Verdict")
    (.text c!"\n  verdict_."
    (.action (.var c!"t")
    (.text c!"("
    (.action (.ap (.fn c!"cppOutcomeEnum") (.var c!"o"))
    (.text c!");"
    .nil)))))
    .nil
  (.ite (.fld (.fld .dot c!"Verdict") c!"IsFail")
    (.text c!"\n\n  end(rtcg::Status::FAIL); // This state fails at least one test"
    .nil)
    (.ite (.fld .dot c!"HasIn")
      (.text c!"\n\n  // This state provides an input to the SUT\n  status_ = rtcg::Status::WAIT_IN;"
      (.with_ (.fld .dot c!"In")
        (.text c!"\n\n  "
        (.template c!"log" (some (.str c!"info"))
        (.text c!"\"State '"
        (.action (.fld (.var c!"") c!"ID")
        (.text c!"' sends "
        (.action (.fld (.fld .dot c!"Value") c!"StringValue")
        (.text c!" to SUT on "
        (.action (.fld (.fld .dot c!"Channel") c!"Name")
        (.text c!"; \" <<\n    \"if accepted, next state will be '"
        (.action (.fld .dot c!"Next")
        (.text c!"'.\""
        (.template c!"end_log" none
        (.text c!"\n"
        (.template c!"input" (some .dot)
        .nil))))))))))))))
        .nil
      .nil))
      (.text c!"\n\n  // This state expects an output from the SUT\n  status_ = rtcg::Status::WAIT_OUT;"
      (.range [c!"outSet"] (.fld .dot c!"TransitionSets")
        (.range [] (.ap (.fn c!"index") (.fld .dot c!"Transitions"))
          (.text c!"\n\n  "
          (.template c!"log" (some (.str c!"info"))
          (.text c!"\"State '"
          (.action (.fld (.var c!"") c!"ID")
          (.text c!"' can receive "
          (.action (.fld (.fld .dot c!"Value") c!"StringValue")
          (.text c!" from SUT on "
          (.action (.fld (.fld (.var c!"outSet") c!"Channel") c!"Name")
          (.text c!"; \" <<\n    \"if received, next state will be '"
          (.action (.fld .dot c!"Next")
          (.text c!"'.\""
          (.template c!"end_log" none
          .nil))))))))))))
          .nil
        .nil)
        .nil
      .nil))
    .nil)
  .nil))))))))

/-- The template state_meta.cpp.tmpl -/
def baseStateMetaCpp : Node :=
  (.text c!"\n// A numerical identifier for each state in the testing state machine.\nenum class State\n{"
  (.range [c!"i", c!"v"] .dot
    (.text c!"\n  "
    (.action (.ap (.fn c!"cppEnumField") (.fld (.var c!"v") c!"ID"))
    (.text c!","
    .nil)))
    .nil
  (.text c!"\n};\n\nnamespace state\n{\n  // Gets the name of a state.\n  const char* name(State s)\n  {\n    switch (s) {"
  (.range [] .dot
    (.text c!"\n    case "
    (.action (.ap (.fn c!"cppStateEnum") (.fld .dot c!"ID"))
    (.text c!":\n      return \""
    (.action (.fld .dot c!"ID")
    (.text c!"\";"
    .nil)))))
    .nil
  (.text c!"\n    }\n    return \"???\";\n  }\n}"
  .nil)))))

/-- The template stm.cpp.tmpl -/
def baseStmCpp : Node :=
  (.text c!"\n// The main testing state machine, containing all state used in the test.\nclass StateMachine : public rtcg::TestCase\n{\npublic:\n  StateMachine("
  (.template c!"stm_ctor_params" (some .dot)
  (.text c!");\n  Verdict& getVerdict(); // Gets the current verdict.\n\n  //\n  // Callbacks\n  //\n\n  void timeoutCallback("
  (.template c!"timeout_callback_args" none
  (.text c!");  // Called when the test has run out of time."
  (.ite (.fld (.fld .dot c!"Transitions") c!"FirstStateHasIn")
    (.text c!"\n  void initialDelayCallback("
    (.template c!"initial_delay_callback_args" none
    (.text c!");  // Called after the initial delay timer."
    .nil)))
    .nil
  (.ite (.fld (.fld .dot c!"Transitions") c!"HasIn")
    (.text c!"\n  void inputAcceptedCallback("
    (.template c!"in_callback_args" none
    (.text c!");  // Called when the SUT accepts an input."
    .nil)))
    .nil
  (.text c!"\n\n  // Output callbacks:"
  (.range [] (.fld (.fld .dot c!"Transitions") c!"Out")
    (.text c!"\n  void "
    (.action (.ap (.fn c!"cppCallbackName") (.fld (.fld .dot c!"Channel") c!"Name"))
    (.text c!"(const "
    (.action (.ap (.fn c!"cppChannelMsgType") (.fld (.fld .dot c!"Channel") c!"Name"))
    (.text c!" msg);"
    .nil)))))
    .nil
  (.text c!"\nprivate:\n  Verdict verdict_;\n  State state_ = "
  (.action (.ap (.fn c!"cppStateEnum") (.fld (.ap (.ap (.fn c!"index") (.fld (.fld .dot c!"Stm") c!"States")) (.num 0)) c!"ID"))
  (.text c!";"
  (.template c!"stm_fields" (some .dot)
  (.text c!"\n\n  // State entry functions"
  (.range [] (.fld (.fld .dot c!"Stm") c!"States")
    (.text c!"\n  void "
    (.action (.ap (.fn c!"cppStateEntry") (.fld .dot c!"ID"))
    (.text c!"();"
    .nil)))
    .nil
  (.text c!"\n\n  const char* stateName();       // Gets the name of the current state.\n  void end(rtcg::Status status); // Ends the test with the given status.\n};\n\nStateMachine::StateMachine("
  (.template c!"stm_ctor_params" (some .dot)
  (.text c!")\n{"
  (.ite (.fld (.fld .dot c!"Transitions") c!"FirstStateHasIn")
    (.text c!"\n  // This test's first state has an input, so we delay entry into the initial\n  // state to initialDelayCallback.\n  status_ = rtcg::Status::WAIT_START;"
    .nil)
    (.text c!"\n  "
    (.action (.ap (.fn c!"cppStateEntry") (.fld (.fld .dot c!"Stm") c!"InitialState"))
    (.text c!"();"
    .nil)))
  (.template c!"stm_ctor" (some .dot)
  (.text c!"\n}\n\nVerdict& StateMachine::getVerdict()\n{\n  return verdict_;\n}\n\nconst char* StateMachine::stateName()\n{\n  return state::name(state_);\n}\n\nvoid StateMachine::end(rtcg::Status s)\n{\n  if (!rtcg::status::isRunning(status_))\n  {\n    "
  (.template c!"log" (some (.str c!"error"))
  (.text c!"\"Tried to end test twice (first as \" << status_ << \", then as \" << s << \".\""
  (.template c!"end_log" none
  (.text c!"\n    return;\n  }\n\n  if (rtcg::status::isRunning(s))\n  {\n    "
  (.template c!"log" (some (.str c!"error"))
  (.text c!"\"Tried to end with a non-ending status \" << s << \".\""
  (.template c!"end_log" none
  (.text c!"\n    s = rtcg::Status::BUG;\n  }\n\n  status_ = s;"
  (.template c!"stm_end" (some .dot)
  (.text c!"\n}\n\n\n//\n// Callback functions\n//\n\nvoid StateMachine::timeoutCallback("
  (.template c!"timeout_callback_args" none
  (.text c!")\n{\n  // Don't acknowledge this callback if we've already timed out.\n  if (!rtcg::status::isRunning(status_))\n    return;\n\n  "
  (.template c!"log" (some (.str c!"info"))
  (.text c!"\"Timeout!\""
  (.template c!"end_log" none
  (.text c!"\n  end(rtcg::Status::TIMEOUT);\n}"
  (.ite (.fld (.fld .dot c!"Transitions") c!"FirstStateHasIn")
    (.text c!"\n\nvoid StateMachine::initialDelayCallback("
    (.template c!"initial_delay_callback_args" none
    (.text c!")\n{\n  // Only acknowledge this callback if we're actually waiting to start.\n  if (status_ != rtcg::Status::WAIT_START)\n    return;\n\n  "
    (.template c!"log" (some (.str c!"info"))
    (.text c!"\"Initial delay finished, now entering first state.\""
    (.template c!"end_log" none
    (.text c!"\n  "
    (.action (.ap (.fn c!"cppStateEntry") (.fld (.fld .dot c!"Stm") c!"InitialState"))
    (.text c!"();\n}"
    .nil)))))))))
    .nil
  (.ite (.fld (.fld .dot c!"Transitions") c!"HasIn")
    (.text c!"\n\nvoid StateMachine::inputAcceptedCallback("
    (.template c!"in_callback_args" none
    (.text c!")\n{"
    (.template c!"in_callback" (some (.fld (.fld .dot c!"Transitions") c!"InMerged"))
    (.text c!"}"
    .nil)))))
    .nil
  (.range [] (.fld (.fld .dot c!"Transitions") c!"Out")
    (.text c!"\n\nvoid StateMachine::"
    (.action (.ap (.fn c!"cppCallbackName") (.fld (.fld .dot c!"Channel") c!"Name"))
    (.text c!"(const "
    (.action (.ap (.fn c!"cppChannelMsgType") (.fld (.fld .dot c!"Channel") c!"Name"))
    (.text c!" msg)\n{"
    (.template c!"out_callback" (some .dot)
    (.text c!"}"
    .nil)))))))
    .nil
  (.text c!"\n\n\n//\n// State machine entry functions\n//"
  (.range [] (.fld (.fld .dot c!"Stm") c!"States")
    (.text c!"\n\nvoid StateMachine::"
    (.action (.ap (.fn c!"cppStateEntry") (.fld .dot c!"ID"))
    (.text c!"()\n{\n  state_ = "
    (.action (.ap (.fn c!"cppStateEnum") (.fld .dot c!"ID"))
    (.text c!";\n"
    (.template c!"state" (some .dot)
    (.text c!"\n}"
    .nil)))))))
    .nil
  .nil))))))))))))))))))))))))))))))))))))))))))

/-- The template stm_ctor_params -/
def animateStmCtorParams : Node :=
  .nil

/-- The template stm_fields -/
def animateStmFields : Node :=
  .nil

/-- The template stm_ctor -/
def animateStmCtor : Node :=
  .nil

/-- The template stm_end -/
def animateStmEnd : Node :=
  .nil

/-- The template in_callback -/
def baseInCallback : Node :=
  (.template c!"in_callback.cpp.tmpl" (some .dot)
  .nil)

/-- The template out_callback -/
def baseOutCallback : Node :=
  (.template c!"out_callback.cpp.tmpl" (some .dot)
  .nil)

/-- The template state -/
def baseState : Node :=
  (.template c!"state_entry.cpp.tmpl" (some .dot)
  .nil)

/-- The template verdict.cpp.tmpl -/
def baseVerdictCpp : Node :=
  (.text c!"\n// Records information about test verdicts.\nclass Verdict\n{\npublic:\n  void dump(); // Outputs all test verdicts to log."
  (.range [] .dot
    (.text c!"\n  void "
    (.action .dot
    (.text c!"(rtcg::Outcome new_val); // Sets the outcome of "
    (.action .dot
    (.text c!"."
    .nil)))))
    .nil
  (.text c!"\nprivate:"
  (.range [] .dot
    (.text c!"\n  rtcg::Outcome "
    (.action .dot
    (.text c!"_ = rtcg::Outcome::UNSET;"
    .nil)))
    .nil
  (.text c!"\n};\n\nvoid Verdict::dump()\n{"
  (.template c!"verdict_dump" (some .dot)
  (.text c!"\n}"
  (.range [] .dot
    (.text c!"\n\nvoid Verdict::"
    (.action .dot
    (.text c!"(rtcg::Outcome new_val)\n{\n  if ("
    (.action .dot
    (.text c!"_ == new_val)\n    return;\n\n  "
    (.template c!"log" (some (.str c!"info"))
    (.text c!"\"Test "
    (.action .dot
    (.text c!" is now \" << new_val << \"; was \" << "
    (.action .dot
    (.text c!"_ << \".\""
    (.template c!"end_log" none
    (.text c!"\n  "
    (.action .dot
    (.text c!"_ = new_val;\n}"
    .nil)))))))))))))))
    .nil
  .nil))))))))

/-- The template verdict_dump -/
def baseVerdictDump : Node :=
  (.text c!"\n  "
  (.template c!"log" (some (.str c!"info"))
  (.text c!"\"Final outcomes: \""
  (.template c!"end_log" none
  (.range [] .dot
    (.text c!"\n  "
    (.template c!"log" (some (.str c!"info"))
    (.text c!"\"  "
    (.action .dot
    (.text c!" = \" << "
    (.action .dot
    (.text c!"_"
    (.template c!"end_log" none
    .nil))))))))
    .nil
  .nil)))))

/-- The template main.cpp.tmpl -/
def baseMainCpp : Node :=
  (.template c!"base.cpp.tmpl" (some .dot)
  .nil)

/-- The template log -/
def animateLog : Node :=
  (.text c!"std::cerr << \"["
  (.action .dot
  (.text c!"] \" << "
  .nil)))

/-- The template end_log -/
def animateEndLog : Node :=
  (.text c!" << std::endl;"
  .nil)

/-- The template input -/
def animateInput : Node :=
  (.text c!"\n  "
  (.template c!"log" (some (.str c!"info"))
  (.text c!"\"(Actual value received by SUT on "
  (.action (.fld (.fld .dot c!"Channel") c!"Name")
  (.text c!" after conversion: \" << "
  (.action (.ap (.fn c!"cppConvertTo") (.fld (.fld .dot c!"Channel") c!"Name"))
  (.text c!"("
  (.action (.ap (.fn c!"cppValue") (.fld .dot c!"Value"))
  (.text c!") << \")\""
  (.template c!"end_log" none
  .nil))))))))))

/-- The template timeout_callback_args -/
def animateTimeoutCallbackArgs : Node :=
  (.action (.str c!"")
  .nil)

/-- The template initial_delay_callback_args -/
def animateInitialDelayCallbackArgs : Node :=
  (.action (.str c!"")
  .nil)

/-- The template in_callback_args -/
def animateInCallbackArgs : Node :=
  (.action (.str c!"")
  .nil)

/-- The template main_body -/
def baseMainBody : Node :=
  .nil

/-- The template main_body.cpp.tmpl -/
def animateMainBodyCpp : Node :=
  (.ite (.fld (.fld .dot c!"Transitions") c!"FirstStateHasIn")
    (.text c!"\n  std::cout << \"[!] Test is waiting for the SUT to initialise before sending an input.\\n\";"
    .nil)
    .nil
  (.text c!"\n\n  for (auto s = stm.getStatus(); rtcg::status::isRunning(s); s = stm.getStatus())\n  {\n    std::cout << \"\\nType one of the following:\\n\";"
  (.ite (.fld (.fld .dot c!"Transitions") c!"HasIn")
    (.ite (.fld (.fld .dot c!"Transitions") c!"FirstStateHasIn")
      (.text c!"\n    if (s == rtcg::Status::WAIT_START)\n      std::cout << \"  ready (prepares SUT for inputs)\\n\";\n    else if"
      .nil)
      (.text c!"\n    if\n"
      .nil)
    (.text c!" (s == rtcg::Status::WAIT_IN)\n      std::cout << \"  accept (accepts an input)\\n\";"
    .nil))
    .nil
  (.text c!"\n    std::cout << \"  timeout (quits the test with a timeout)\\n\";\n\n    std::cout << \"\\nOr, to enter an output, type its name and the desired value: \\n\";"
  (.range [] (.fld (.fld .dot c!"Transitions") c!"Out")
    (.text c!"\n    std::cout << \"  "
    (.action (.fld (.fld .dot c!"Channel") c!"Name")
    (.text c!" (type: "
    (.action (.fld (.ap (.ap (.fn c!"index") (.fld (.var c!"") c!"ChannelTypes")) (.fld (.fld .dot c!"Channel") c!"Name")) c!"Base")
    (.text c!")\\n\";"
    .nil)))))
    (.text c!"\n    std::cout << \"  No outputs available for this test-case.\\n\";"
    .nil)
  (.text c!"\n\n    std::cout << \"\\n> \";\n    std::string choice;\n    std::cin >> choice;\n\n    if (choice == \"timeout\")\n      stm.timeoutCallback();"
  (.ite (.fld (.fld .dot c!"Transitions") c!"FirstStateHasIn")
    (.text c!"\n    else if (choice == \"ready\" && s == rtcg::Status::WAIT_START)\n    stm.initialDelayCallback();"
    .nil)
    .nil
  (.ite (.fld (.fld .dot c!"Transitions") c!"HasIn")
    (.text c!"\n    else if (choice == \"accept\" && s == rtcg::Status::WAIT_IN)\n      stm.inputAcceptedCallback();"
    .nil)
    .nil
  (.range [] (.fld (.fld .dot c!"Transitions") c!"Out")
    (.decl c!"cn" (.fld (.fld .dot c!"Channel") c!"Name")
    (.decl c!"ctype" (.ap (.ap (.fn c!"index") (.fld (.var c!"") c!"ChannelTypes")) (.var c!"cn"))
    (.text c!"\n    else if (choice == \""
    (.action (.var c!"cn")
    (.text c!"\")\n    {\n      "
    (.action (.ap (.fn c!"cppType") (.fld (.var c!"ctype") c!"Base"))
    (.text c!" in;\n      std::cin >> in;\n\n      stm."
    (.action (.ap (.fn c!"cppCallbackName") (.fld (.fld .dot c!"Channel") c!"Name"))
    (.text c!"("
    (.action (.ap (.fn c!"cppConvertTo") (.fld (.fld .dot c!"Channel") c!"Name"))
    (.text c!"(in));\n    }"
    .nil)))))))))))
    .nil
  (.text c!"\n    else\n      std::cout << \"Sorry, try again.\\n\";\n  }"
  .nil))))))))))

/-- The template set animate -/
def animateSet : GoMap Str Node :=
  [(c!"base.cpp.tmpl", baseBaseCpp)
  , (c!"constants", animateConstants)
  , (c!"entry.cpp.tmpl", baseEntryCpp)
  , (c!"main_args", animateMainArgs)
  , (c!"pre_init", animatePreInit)
  , (c!"stm_ctor_args", animateStmCtorArgs)
  , (c!"init", animatePreInit)
  , (c!"cleanup", baseCleanup)
  , (c!"in_callback.cpp.tmpl", baseInCallbackCpp)
  , (c!"includes.cpp.tmpl", baseIncludesCpp)
  , (c!"system_includes", animateSystemIncludes)
  , (c!"out_callback.cpp.tmpl", baseOutCallbackCpp)
  , (c!"state_entry.cpp.tmpl", baseStateEntryCpp)
  , (c!"state_meta.cpp.tmpl", baseStateMetaCpp)
  , (c!"stm.cpp.tmpl", baseStmCpp)
  , (c!"stm_ctor_params", animateStmCtorParams)
  , (c!"stm_fields", animateStmFields)
  , (c!"stm_ctor", animateStmCtor)
  , (c!"stm_end", animateStmEnd)
  , (c!"in_callback", baseInCallback)
  , (c!"out_callback", baseOutCallback)
  , (c!"state", baseState)
  , (c!"verdict.cpp.tmpl", baseVerdictCpp)
  , (c!"verdict_dump", baseVerdictDump)
  , (c!"main.cpp.tmpl", baseMainCpp)
  , (c!"log", animateLog)
  , (c!"end_log", animateEndLog)
  , (c!"input", animateInput)
  , (c!"timeout_callback_args", animateTimeoutCallbackArgs)
  , (c!"initial_delay_callback_args", animateInitialDelayCallbackArgs)
  , (c!"in_callback_args", animateInCallbackArgs)
  , (c!"main_body", baseMainBody)
  , (c!"main_body.cpp.tmpl", animateMainBodyCpp)
  ]

/-- The template constants -/
def rosConstants : Node :=
  (.text c!"\nconst int TIMEOUT_SEC     = 15;\nconst int INPUT_DELAY_SEC = 3;"
  .nil)

/-- The template main_args -/
def rosMainArgs : Node :=
  (.text c!"int argc, char** argv"
  .nil)

/-- The template pre_init -/
def rosPreInit : Node :=
  (.text c!"\n  ros::init(argc, argv, \""
  (.action (.fld .dot c!"Name")
  (.text c!"\");\n  ros::NodeHandle nh;\n\n  // Publishers"
  (.range [] (.fld (.fld .dot c!"Transitions") c!"In")
    (.text c!"\n  auto "
    (.template c!"publisher_name" (some .dot)
    (.text c!" = nh.advertise<"
    (.action (.ap (.fn c!"cppChannelValueType") (.fld (.fld .dot c!"Channel") c!"Name"))
    (.text c!">(\""
    (.template c!"topic_name" (some .dot)
    (.text c!"\", 1000);"
    .nil)))))))
    .nil
  .nil))))

/-- The template stm_ctor_args -/
def rosStmCtorArgs : Node :=
  (.range [c!"i", c!"t"] (.fld (.fld .dot c!"Transitions") c!"In")
    (.ite (.ap (.ap (.fn c!"ne") (.var c!"i")) (.num 0))
      (.text c!", "
      .nil)
      .nil
    (.template c!"publisher_name" (some (.var c!"t"))
    .nil))
    .nil
  .nil)

/-- The template init -/
def rosInit : Node :=
  (.text c!"\n  // Subscribers"
  (.ite (.fld (.fld .dot c!"Transitions") c!"HasIn")
    (.text c!"\n  auto input_accepted_sub = nh.subscribe(\"input_accepted\", 10, &StateMachine::inputAcceptedCallback, &stm);"
    .nil)
    .nil
  (.text c!"\n"
  (.range [] (.fld (.fld .dot c!"Transitions") c!"Out")
    (.text c!"\n  auto "
    (.template c!"subscriber_name" (some .dot)
    (.text c!" = nh.subscribe(\""
    (.template c!"topic_name" (some .dot)
    (.text c!"\", 10, &StateMachine::"
    (.action (.ap (.fn c!"cppCallbackName") (.fld (.fld .dot c!"Channel") c!"Name"))
    (.text c!", &stm);"
    .nil)))))))
    .nil
  (.text c!"\n\n  // Timers\n  auto timeout_timer = nh.createTimer(ros::Duration(TIMEOUT_SEC), &StateMachine::timeoutCallback, &stm);"
  (.ite (.fld (.fld .dot c!"Transitions") c!"FirstStateHasIn")
    (.text c!"\n  auto initial_delay_timer = nh.createTimer(ros::Duration(INPUT_DELAY_SEC), &StateMachine::initialDelayCallback, &stm);"
    .nil)
    .nil
  .nil))))))

/-- The template system_includes -/
def rosSystemIncludes : Node :=
  (.text c!"\n#include \"ros/ros.h\"\n#include \"std_msgs/Bool.h\"\n#include \"std_msgs/String.h\""
  .nil)

/-- The template stm_ctor_params -/
def rosStmCtorParams : Node :=
  (.range [c!"i", c!"t"] (.fld (.fld .dot c!"Transitions") c!"In")
    (.ite (.ap (.ap (.fn c!"ne") (.var c!"i")) (.num 0))
      (.text c!", "
      .nil)
      .nil
    (.text c!"ros::Publisher "
    (.template c!"publisher_name" (some (.var c!"t"))
    .nil)))
    .nil
  .nil)

/-- The template stm_fields -/
def rosStmFields : Node :=
  (.text c!"\n\n  // Publisher handles"
  (.range [] (.fld (.fld .dot c!"Transitions") c!"In")
    (.text c!"\n  ros::Publisher "
    (.template c!"publisher_name" (some .dot)
    (.text c!"_;"
    .nil)))
    .nil
  .nil))

/-- The template stm_ctor -/
def rosStmCtor : Node :=
  (.text c!"\n\n  // Install the publisher handles"
  (.range [] (.fld (.fld .dot c!"Transitions") c!"In")
    (.text c!"\n  "
    (.template c!"publisher_name" (some .dot)
    (.text c!"_ = "
    (.template c!"publisher_name" (some .dot)
    (.text c!";"
    .nil)))))
    .nil
  .nil))

/-- The template stm_end -/
def rosStmEnd : Node :=
  (.text c!"\n  ros::shutdown();"
  .nil)

/-- The template log -/
def rosLog : Node :=
  (.text c!"ROS_"
  (.action (.ap (.fn c!"toUpper") .dot)
  (.text c!"_STREAM("
  .nil)))

/-- The template end_log -/
def rosEndLog : Node :=
  (.text c!" << std::endl);"
  .nil)

/-- The template topic_name -/
def rosTopicName : Node :=
  (.action (.ap (.fn c!"toLowerUnderscored") (.fld (.fld .dot c!"Channel") c!"Name"))
  .nil)

/-- The template publisher_name -/
def rosPublisherName : Node :=
  (.template c!"topic_name" (some .dot)
  (.text c!"_pub"
  .nil))

/-- The template subscriber_name -/
def rosSubscriberName : Node :=
  (.template c!"topic_name" (some .dot)
  (.text c!"_sub"
  .nil))

/-- The template input -/
def rosInput : Node :=
  (.text c!"\n  "
  (.template c!"publisher_name" (some .dot)
  (.text c!"_.publish("
  (.action (.ap (.fn c!"cppConvertTo") (.fld (.fld .dot c!"Channel") c!"Name"))
  (.text c!"("
  (.action (.ap (.fn c!"cppValue") (.fld .dot c!"Value"))
  (.text c!"));"
  .nil)))))))

/-- The template timeout_callback_args -/
def rosTimeoutCallbackArgs : Node :=
  (.text c!"const ros::TimerEvent& event"
  .nil)

/-- The template initial_delay_callback_args -/
def rosInitialDelayCallbackArgs : Node :=
  (.text c!"const ros::TimerEvent& event"
  .nil)

/-- The template in_callback_args -/
def rosInCallbackArgs : Node :=
  (.text c!"const std_msgs::Bool::ConstPtr& msg"
  .nil)

/-- The template main_body.cpp.tmpl -/
def rosMainBodyCpp : Node :=
  (.text c!"  ros::spin();\n"
  .nil)

/-- The template set ros -/
def rosSet : GoMap Str Node :=
  [(c!"base.cpp.tmpl", baseBaseCpp)
  , (c!"constants", rosConstants)
  , (c!"entry.cpp.tmpl", baseEntryCpp)
  , (c!"main_args", rosMainArgs)
  , (c!"pre_init", rosPreInit)
  , (c!"stm_ctor_args", rosStmCtorArgs)
  , (c!"init", rosInit)
  , (c!"cleanup", baseCleanup)
  , (c!"in_callback.cpp.tmpl", baseInCallbackCpp)
  , (c!"includes.cpp.tmpl", baseIncludesCpp)
  , (c!"system_includes", rosSystemIncludes)
  , (c!"out_callback.cpp.tmpl", baseOutCallbackCpp)
  , (c!"state_entry.cpp.tmpl", baseStateEntryCpp)
  , (c!"state_meta.cpp.tmpl", baseStateMetaCpp)
  , (c!"stm.cpp.tmpl", baseStmCpp)
  , (c!"stm_ctor_params", rosStmCtorParams)
  , (c!"stm_fields", rosStmFields)
  , (c!"stm_ctor", rosStmCtor)
  , (c!"stm_end", rosStmEnd)
  , (c!"in_callback", baseInCallback)
  , (c!"out_callback", baseOutCallback)
  , (c!"state", baseState)
  , (c!"verdict.cpp.tmpl", baseVerdictCpp)
  , (c!"verdict_dump", baseVerdictDump)
  , (c!"main.cpp.tmpl", baseMainCpp)
  , (c!"log", rosLog)
  , (c!"end_log", rosEndLog)
  , (c!"topic_name", rosTopicName)
  , (c!"publisher_name", rosPublisherName)
  , (c!"subscriber_name", rosSubscriberName)
  , (c!"input", rosInput)
  , (c!"timeout_callback_args", rosTimeoutCallbackArgs)
  , (c!"initial_delay_callback_args", rosInitialDelayCallbackArgs)
  , (c!"in_callback_args", rosInCallbackArgs)
  , (c!"main_body", baseMainBody)
  , (c!"main_body.cpp.tmpl", rosMainBodyCpp)
  ]

/-- The template convert_base.h.tmpl -/
def convConvertBaseH : Node :=
  (.text c!"//\n// Conversion functions\n//\n\n#ifndef CONVERT_H_DEFINED\n#define CONVERT_H_DEFINED\n"
  (.range [] (.fld .dot c!"Includes")
    (.text c!"\n#include "
    (.ite (.fld .dot c!"IsSystem")
      (.text c!"<"
      .nil)
      (.text c!"\""
      .nil)
    (.action (.fld .dot c!"Src")
    (.ite (.fld .dot c!"IsSystem")
      (.text c!">"
      .nil)
      (.text c!"\""
      .nil)
    .nil))))
    .nil
  (.text c!"\n\n\n// Value type definitions\n//\n// These are used in the test driver wherever we need a plain value of the type\n// expected by the SUT.\n//\n// We use #define instead of typedef/using to avoid problems if there are\n// hidden type parameters (for instance, the allocators in ROS strings).\n"
  (.range [c!"ch", c!"ty"] (.fld .dot c!"ChannelTypes")
    (.text c!"\n#define "
    (.action (.ap (.fn c!"cppChannelValueType") (.var c!"ch"))
    (.text c!" "
    (.ite (.fld .dot c!"HasOverride")
      (.action (.fld .dot c!"Override")
      .nil)
      (.template c!"type" (some (.fld .dot c!"Base"))
      .nil)
    .nil))))
    .nil
  (.text c!"\n\n\n// Message type definitions\n//\n// These are used in output callbacks, and refer to the type of messages being\n// sent from the SUT.  These can differ from the value types; for instance, in\n// ROS, they are pointers to values rather than copies.\n"
  (.range [c!"ch", c!"ty"] (.fld .dot c!"ChannelTypes")
    (.text c!"\n#define "
    (.action (.ap (.fn c!"cppChannelMsgType") (.var c!"ch"))
    (.text c!" "
    (.template c!"msg_type" (some (.var c!"ch"))
    .nil))))
    .nil
  (.text (c!"\n\n//\n// Conversion functions\n//\n// We use these to convert from basic C++ types (int, std::string, etc) to\n// and from the types mentioned above.\n//\n// Wherever a function has 'User override supplied' next to it, there must be a\n// definition of that function somewhere in the compilation unit.\n//\n\n/" ++ c!"/ Converting from channel message types to basic types")
  (.range [c!"ch", c!"ty"] (.fld .dot c!"ChannelTypes")
    (.text c!"\n\n"
    (.action (.ap (.fn c!"cppType") (.fld .dot c!"Base"))
    (.text c!" "
    (.action (.ap (.fn c!"cppConvertFrom") (.var c!"ch"))
    (.text c!"(const "
    (.action (.ap (.fn c!"cppChannelMsgType") (.var c!"ch"))
    (.text c!" msg)"
    (.ite (.fld .dot c!"HasOverride")
      (.text c!"; // User override supplied"
      .nil)
      (.text c!"\n{"
      (.template c!"convert_from" (some (.fld .dot c!"Base"))
      (.text c!"\n}"
      .nil)))
    .nil))))))))
    .nil
  (.text c!"\n\n// Converting from basic types to channel value types"
  (.range [c!"ch", c!"ty"] (.fld .dot c!"ChannelTypes")
    (.text c!"\n\n"
    (.action (.ap (.fn c!"cppChannelValueType") (.var c!"ch"))
    (.text c!" "
    (.action (.ap (.fn c!"cppConvertTo") (.var c!"ch"))
    (.text c!"(const "
    (.action (.ap (.fn c!"cppType") (.fld .dot c!"Base"))
    (.text c!" value)"
    (.ite (.fld .dot c!"HasOverride")
      (.text c!"; // User override supplied"
      .nil)
      (.text c!"\n{"
      (.template c!"convert_to" (some (.fld .dot c!"Base"))
      (.text c!"\n}"
      .nil)))
    .nil))))))))
    .nil
  (.text c!"\n\n#endif // CONVERT_H_DEFINED\n"
  .nil)))))))))))

/-- The template convert.h.tmpl -/
def convConvertH : Node :=
  (.template c!"convert_base.h.tmpl" (some .dot)
  .nil)

/-- The template convert_from -/
def animateConvConvertFrom : Node :=
  (.text c!"\n  return msg;  // No conversion required for animate"
  .nil)

/-- The template convert_to -/
def animateConvConvertTo : Node :=
  (.text c!"\n    return value;  // No conversion required for animate"
  .nil)

/-- The template type -/
def animateConvType : Node :=
  (.action (.ap (.fn c!"cppType") .dot)
  .nil)

/-- The template msg_type -/
def animateConvMsgType : Node :=
  (.action (.ap (.fn c!"cppChannelValueType") .dot)
  .nil)

/-- The template set animateConv -/
def animateConvSet : GoMap Str Node :=
  [(c!"convert_base.h.tmpl", convConvertBaseH)
  , (c!"convert.h.tmpl", convConvertH)
  , (c!"convert_from", animateConvConvertFrom)
  , (c!"convert_to", animateConvConvertTo)
  , (c!"type", animateConvType)
  , (c!"msg_type", animateConvMsgType)
  ]

/-- The template convert_from -/
def rosConvConvertFrom : Node :=
  (.ite (.fld .dot c!"IsEnum")
    (.text c!"\n  return std::string(msg->data.c_str());"
    .nil)
    (.text c!"\n  return msg->data;  // No conversion required"
    .nil)
  .nil)

/-- The template convert_to -/
def rosConvConvertTo : Node :=
  (.ite (.fld .dot c!"IsEnum")
    (.text c!"\n  std_msgs::String msg;\n  msg.data = value.c_str();\n  return msg;"
    .nil)
    (.text c!"\n  return value;  // No conversion required"
    .nil)
  .nil)

/-- The template type -/
def rosConvType : Node :=
  (.text c!"std_msgs::String"
  .nil)

/-- The template msg_type -/
def rosConvMsgType : Node :=
  (.action (.ap (.fn c!"cppChannelValueType") .dot)
  (.text c!"::ConstPtr&"
  .nil))

/-- The template set rosConv -/
def rosConvSet : GoMap Str Node :=
  [(c!"convert_base.h.tmpl", convConvertBaseH)
  , (c!"convert.h.tmpl", convConvertH)
  , (c!"convert_from", rosConvConvertFrom)
  , (c!"convert_to", rosConvConvertTo)
  , (c!"type", rosConvType)
  , (c!"msg_type", rosConvMsgType)
  ]

/-- The template Makefile.tmpl -/
def makeMakefile : Node :=
  (.text c!".POSIX:\n\nCXXFLAGS = "
  (.template c!"cxxflags" (some .dot)
  (.text c!"\n\n.PHONY: all mkdir\n\nall: mkdir"
  (.range [c!"k", c!"v"] (.fld .dot c!"Tests")
    (.text c!" "
    (.template c!"output" (some (.var c!"k"))
    .nil))
    .nil
  (.text c!"\n\nmkdir:\n\tmkdir -p bin\n"
  (.range [c!"k", c!"v"] (.fld .dot c!"Tests")
    (.text c!"\n"
    (.template c!"output" (some (.var c!"k"))
    (.text c!": "
    (.template c!"reg_inputs" (some (.var c!"k"))
    (.template c!"convert" (some (.var c!""))
    (.text c!"\n\t$(CXX) $(CXXFLAGS) -o $@ -Isrc/"
    (.action (.var c!"k")
    (.text c!"/include -Isrc/rtcg"
    (.template c!"iconvert" (some (.var c!""))
    (.text c!" "
    (.template c!"reg_inputs" (some (.var c!"k"))
    (.template c!"convert" (some (.var c!""))
    .nil))))))))))))
    .nil
  (.text c!"\n"
  .nil)))))))

/-- The template output -/
def makeOutput : Node :=
  (.text c!"bin/"
  (.action .dot
  .nil))

/-- The template reg_inputs -/
def makeRegInputs : Node :=
  (.text c!"src/"
  (.action .dot
  (.text c!"/src/main.cpp src/rtcg/rtcg.cpp"
  .nil)))

/-- The template iconvert -/
def makeIconvert : Node :=
  (.ite (.fld .dot c!"HasConversion")
    (.text c!" -Isrc/convert"
    .nil)
    .nil
  .nil)

/-- The template convert -/
def makeConvert : Node :=
  (.ite (.fld .dot c!"HasConversion")
    (.text c!" src/convert/convert.cpp"
    .nil)
    .nil
  .nil)

/-- The template cxxflags -/
def makeCxxflags : Node :=
  (.text c!"-std=c++11 -Wall -Wextra"
  .nil)

/-- The template set make -/
def makeSet : GoMap Str Node :=
  [(c!"Makefile.tmpl", makeMakefile)
  , (c!"output", makeOutput)
  , (c!"reg_inputs", makeRegInputs)
  , (c!"iconvert", makeIconvert)
  , (c!"convert", makeConvert)
  , (c!"cxxflags", makeCxxflags)
  ]

/-- The template CMakeLists.txt.tmpl -/
def cmakeCMakeListsTxt : Node :=
  (.text c!"cmake_minimum_required(VERSION 3.0.2)\nproject("
  (.action (.fld .dot c!"Name")
  (.text c!")\n\nadd_compile_options(-std=c++11)\n\nfind_package(catkin REQUIRED COMPONENTS\n    roscpp\n    std_msgs"
  (.range [] (.fld .dot c!"Depends")
    (.text c!"\n    "
    (.action .dot
    .nil))
    .nil
  (.text c!"\n)\n\ncatkin_package(CATKIN_DEPENDS\n    roscpp\n    std_msgs"
  (.range [] (.fld .dot c!"Depends")
    (.text c!"\n    "
    (.action .dot
    .nil))
    .nil
  (.text (c!"\n)\n\ninclude_directories(\n    include\n    ${catkin_INCLUDE_DIRS}\n    ../convert/\n    ../rtcg/\n)\n\nadd_library(convert\n    ../convert/convert.cpp\n)\n\nadd_library(rtcg\n    ../rtcg/rtcg.cpp\n)\n\nadd_executable(${PROJECT_NAME}_node\n    src/main.cpp\n    ../convert/convert.cpp\n    ../rtcg/rtcg.cpp\n)\n\nset_targe" ++ c!"t_properties(${PROJECT_NAME}_node PROPERTIES OUTPUT_NAME node PREFIX \"\")\n\nadd_dependencies(${PROJECT_NAME}_node\n    ${${PROJECT_NAME}_EXPORTED_TARGETS}\n    ${catkin_EXPORTED_TARGETS}\n    convert\n    rtcg\n)\n\ntarget_link_libraries(${PROJECT_NAME}_node\n    ${catkin_LIBRARIES}\n    convert\n    rtcg\n)")
  .nil)))))))

/-- The template set cmake -/
def cmakeSet : GoMap Str Node :=
  [(c!"CMakeLists.txt.tmpl", cmakeCMakeListsTxt)
  ]

theorem animateSet_eq : mainSet .animate = some animateSet := by decide +kernel

theorem rosSet_eq : mainSet .ros = some rosSet := by decide +kernel

theorem animateConvSet_eq : convertSet .animate = some animateConvSet := by decide +kernel

theorem rosConvSet_eq : convertSet .ros = some rosConvSet := by decide +kernel

theorem makeSet_eq : makefileSet = some makeSet := by decide +kernel

theorem cmakeSet_eq : Tmpl.cmakeSet = some Trees.cmakeSet := by decide +kernel

end Trees

end Tmpl

end Rtcg
