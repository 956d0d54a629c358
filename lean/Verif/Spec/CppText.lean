import Verif.Model.TemplateData

/-
What the generated C++ files look like, text by text: main.cpp and convert.h, for each variant.  The templates of /repo are executed by
the model of text/template in Model/TextTemplate.lean; this file says, without templates, what comes out.
-/

namespace Rtcg

namespace Spec

namespace CppText

open Strmanip Cpp Templates Tmpl

/-- The start and the end of a log statement -/
def log (U : Unicode) (v : Variant) (level : Str) : Str :=
  if v = Variant.ros then c!"ROS_" ++ U.strToUpper level ++ c!"_STREAM(" else c!"std::cerr << \"[" ++ level ++ c!"] \" << "

def endLog (v : Variant) : Str := if v = Variant.ros then c!" << std::endl);" else c!" << std::endl;"

/-- A log statement -/
def logged (U : Unicode) (v : Variant) (level what : Str) : Str := log U v level ++ what ++ endLog v

/-! ### includes and constants -/

def includeLine (i : CppConfig.Include) : Str :=
  c!"\n#include " ++ (if i.isSystem then c!"<" else c!"\"") ++ i.src ++ (if i.isSystem then c!">" else c!"\"")

def systemIncludes (v : Variant) : Str :=
  if v = Variant.ros then c!"\n#include \"ros/ros.h\"\n#include \"std_msgs/Bool.h\"\n#include \"std_msgs/String.h\""
  else c!"\n#include <iostream>"

def includes (v : Variant) (ctx : CppConfig.Context) : Str :=
  c!"#include <string>" ++ systemIncludes v ++ ctx.includes.flatMap includeLine ++
  c!"\n\n#include \"rtcg.h\"    // Helper definitions (compile with ../rtcg/rtcg.cpp)\n#include \"convert.h\" // Channel type definitions and conversion functions\n"

def constants (v : Variant) : Str :=
  if v = Variant.ros then c!"\nconst int TIMEOUT_SEC     = 15;\nconst int INPUT_DELAY_SEC = 3;" else c!"\n// no constants defined"

/-! ### class Verdict -/

def setterDecl (t : Str) : Str := c!"\n  void " ++ t ++ c!"(rtcg::Outcome new_val); // Sets the outcome of " ++ t ++ c!"."

def outcomeField (t : Str) : Str := c!"\n  rtcg::Outcome " ++ t ++ c!"_ = rtcg::Outcome::UNSET;"

def dumpLine (U : Unicode) (v : Variant) (t : Str) : Str :=
  c!"\n  " ++ logged U v c!"info" (c!"\"  " ++ t ++ c!" = \" << " ++ t ++ c!"_")

def setter (U : Unicode) (v : Variant) (t : Str) : Str :=
  c!"\n\nvoid Verdict::" ++ t ++ c!"(rtcg::Outcome new_val)\n{\n  if (" ++ t ++ c!"_ == new_val)\n    return;\n\n  " ++
  logged U v c!"info" (c!"\"Test " ++ t ++ c!" is now \" << new_val << \"; was \" << " ++ t ++ c!"_ << \".\"") ++
  c!"\n  " ++ t ++ c!"_ = new_val;\n}"

def verdict (U : Unicode) (v : Variant) (tests : List Str) : Str :=
  c!"\n// Records information about test verdicts.\nclass Verdict\n{\npublic:\n  void dump(); // Outputs all test verdicts to log." ++
  tests.flatMap setterDecl ++ c!"\nprivate:" ++ tests.flatMap outcomeField ++ c!"\n};\n\nvoid Verdict::dump()\n{\n  " ++
  logged U v c!"info" c!"\"Final outcomes: \"" ++ tests.flatMap (dumpLine U v) ++ c!"\n}" ++ tests.flatMap (setter U v)

/-! ### the states -/

def stateMeta (U : Unicode) (states : List State) : Str :=
  c!"\n// A numerical identifier for each state in the testing state machine.\nenum class State\n{" ++
  states.flatMap (fun s => c!"\n  " ++ enumField U s.id ++ c!",") ++
  c!"\n};\n\nnamespace state\n{\n  // Gets the name of a state.\n  const char* name(State s)\n  {\n    switch (s) {" ++
  states.flatMap (fun s => c!"\n    case " ++ stateEnum U s.id ++ c!":\n      return \"" ++ s.id ++ c!"\";") ++
  c!"\n    }\n    return \"???\";\n  }\n}"

/-! ### class StateMachine -/

/-- Things separated by commas: what each looks like -/
def commas (l : List Str) : Str := l.zipIdx.flatMap (fun si => (if si.2 = 0 then [] else c!", ") ++ si.1)

def ctorParams (U : Unicode) (v : Variant) (tc : TransitionContext) : Str :=
  if v = Variant.ros then commas (tc.in_.map (fun a => c!"ros::Publisher " ++ publisherName U a.channel)) else []

def timerArgs (v : Variant) : Str := if v = Variant.ros then c!"const ros::TimerEvent& event" else []

def acceptedArgs (v : Variant) : Str := if v = Variant.ros then c!"const std_msgs::Bool::ConstPtr& msg" else []

def stmFields (U : Unicode) (v : Variant) (tc : TransitionContext) : Str :=
  if v = Variant.ros then
    c!"\n\n  // Publisher handles" ++ tc.in_.flatMap (fun a => c!"\n  ros::Publisher " ++ publisherName U a.channel ++ c!"_;")
  else []

/-- The declaration of the class -/
def stmClass (U : Unicode) (v : Variant) (m : Stm) (tc : TransitionContext) (first : Str) : Str :=
  c!"\n// The main testing state machine, containing all state used in the test.\nclass StateMachine : public rtcg::TestCase\n{\npublic:\n  StateMachine(" ++
  ctorParams U v tc ++
  c!");\n  Verdict& getVerdict(); // Gets the current verdict.\n\n  //\n  // Callbacks\n  //\n\n  void timeoutCallback(" ++
  timerArgs v ++ c!");  // Called when the test has run out of time." ++
  (if tc.firstStateHasIn then
    c!"\n  void initialDelayCallback(" ++ timerArgs v ++ c!");  // Called after the initial delay timer." else []) ++
  (if tc.hasIn then
    c!"\n  void inputAcceptedCallback(" ++ acceptedArgs v ++ c!");  // Called when the SUT accepts an input." else []) ++
  c!"\n\n  // Output callbacks:" ++
  tc.out.flatMap (fun a =>
    c!"\n  void " ++ callbackName a.channel.name ++ c!"(const " ++ channelMsgType U a.channel.name ++ c!" msg);") ++
  c!"\nprivate:\n  Verdict verdict_;\n  State state_ = " ++ stateEnum U first ++ c!";" ++ stmFields U v tc ++
  c!"\n\n  // State entry functions" ++
  m.states.flatMap (fun s => c!"\n  void " ++ stateEntry U s.id ++ c!"();") ++
  c!"\n\n  const char* stateName();       // Gets the name of the current state.\n  void end(rtcg::Status status); // Ends the test with the given status.\n};\n\n"

def installHandles (U : Unicode) (v : Variant) (tc : TransitionContext) : Str :=
  if v = Variant.ros then
    c!"\n\n  // Install the publisher handles" ++
    tc.in_.flatMap (fun a => c!"\n  " ++ publisherName U a.channel ++ c!"_ = " ++ publisherName U a.channel ++ c!";")
  else []

/-- The constructor -/
def ctor (U : Unicode) (v : Variant) (tc : TransitionContext) (first : Str) : Str :=
  c!"StateMachine::StateMachine(" ++ ctorParams U v tc ++ c!")\n{" ++
  (if tc.firstStateHasIn then
    c!"\n  // This test's first state has an input, so we delay entry into the initial\n  // state to initialDelayCallback.\n  status_ = rtcg::Status::WAIT_START;"
   else c!"\n  " ++ stateEntry U first ++ c!"();") ++
  installHandles U v tc ++ c!"\n}"

/-- `getVerdict`, `stateName` and `end` -/
def helpers (U : Unicode) (v : Variant) : Str :=
  c!"\n\nVerdict& StateMachine::getVerdict()\n{\n  return verdict_;\n}\n\nconst char* StateMachine::stateName()\n{\n  return state::name(state_);\n}\n\nvoid StateMachine::end(rtcg::Status s)\n{\n  if (!rtcg::status::isRunning(status_))\n  {\n    " ++
  logged U v c!"error" c!"\"Tried to end test twice (first as \" << status_ << \", then as \" << s << \".\"" ++
  c!"\n    return;\n  }\n\n  if (rtcg::status::isRunning(s))\n  {\n    " ++
  logged U v c!"error" c!"\"Tried to end with a non-ending status \" << s << \".\"" ++
  c!"\n    s = rtcg::Status::BUG;\n  }\n\n  status_ = s;" ++
  (if v = Variant.ros then c!"\n  ros::shutdown();" else []) ++ c!"\n}"

def timeoutCallback (U : Unicode) (v : Variant) : Str :=
  c!"\n\n\n//\n// Callback functions\n//\n\nvoid StateMachine::timeoutCallback(" ++ timerArgs v ++
  c!")\n{\n  // Don't acknowledge this callback if we've already timed out.\n  if (!rtcg::status::isRunning(status_))\n    return;\n\n  " ++
  logged U v c!"info" c!"\"Timeout!\"" ++ c!"\n  end(rtcg::Status::TIMEOUT);\n}"

def initialDelayCallback (U : Unicode) (v : Variant) (first : Str) : Str :=
  c!"\n\nvoid StateMachine::initialDelayCallback(" ++ timerArgs v ++
  c!")\n{\n  // Only acknowledge this callback if we're actually waiting to start.\n  if (status_ != rtcg::Status::WAIT_START)\n    return;\n\n  " ++
  logged U v c!"info" c!"\"Initial delay finished, now entering first state.\"" ++
  c!"\n  " ++ stateEntry U first ++ c!"();\n}"

/-- The case of a state that sends an input; the machine enters the first of its transitions -/
def acceptedCase (U : Unicode) (v : Variant) (e : Str × List Transition) : Str :=
  c!"\n  case " ++ stateEnum U e.1 ++ c!":\n    " ++
  logged U v c!"info" (c!"\"Accepted input on state " ++ e.1 ++ c!" as expected.\"") ++
  c!"\n    " ++ e.2.head?.elim [] (fun t => stateEntry U t.next) ++ c!"();\n    break;"

def inputAcceptedCallback (U : Unicode) (v : Variant) (inMerged : GoMap Str (List Transition)) : Str :=
  c!"\n\nvoid StateMachine::inputAcceptedCallback(" ++ acceptedArgs v ++ c!")\n{\n  switch (state_)\n  {" ++
  (sortEntries inMerged).flatMap (acceptedCase U v) ++
  c!"\n  default:\n    // We shouldn't be seeing an input acknowledgement in this state.\n    " ++
  logged U v c!"error" c!"\"Accepted input in unexpected state\" << stateName()" ++
  c!"\n    end(rtcg::Status::BUG);\n  }\n}"

/-- The test of a value and what follows it; all but the first come after an `else` -/
def outBranch (U : Unicode) (t : Transition) (i : Nat) : Str :=
  c!"\n    " ++ (if i = 0 then [] else c!"else ") ++ c!"if (" ++
  (if t.value.type.isEnum then c!"value.compare(\"" ++ t.value.stringValue ++ c!"\") == 0" else c!"value == " ++ t.value.stringValue) ++
  c!")\n      " ++ stateEntry U t.next ++ c!"();"

def outCase (U : Unicode) (v : Variant) (c : Channel) (e : Str × List Transition) : Str :=
  c!"\n  case " ++ stateEnum U e.1 ++ c!":" ++ e.2.zipIdx.flatMap (fun ti => outBranch U ti.1 ti.2) ++
  c!"\n    else\n    {\n      " ++
  logged U v c!"info" (c!"\"Unexpected value \" << value << \" for " ++ c.string ++ c!" in state " ++ e.1 ++ c!".\"") ++
  c!"\n      end(rtcg::Status::OFF_SCRIPT);\n    }\n    break;"

def outCallback (U : Unicode) (v : Variant) (a : AggregateSet) : Str :=
  c!"\n\nvoid StateMachine::" ++ callbackName a.channel.name ++ c!"(const " ++ channelMsgType U a.channel.name ++
  c!" msg)\n{\n  auto value = " ++ convertFrom U a.channel.name ++ c!"(msg);\n\n  switch (state_)\n  {" ++
  (sortEntries a.states).flatMap (outCase U v a.channel) ++ c!"\n  default:\n    " ++
  logged U v c!"info" (c!"\"Output \" << value << \" on " ++ a.channel.string ++ c!" in unexpected state \" << stateName() << \".\"") ++
  c!"\n    end(rtcg::Status::OFF_SCRIPT);\n  }\n}"

/-- What is done to send an input -/
def sendInput (U : Unicode) (v : Variant) (c : Channel) (t : Transition) : Str :=
  if v = Variant.ros then
    c!"\n  " ++ publisherName U c ++ c!"_.publish(" ++ convertTo U c.name ++ c!"(" ++ Cpp.value t.value ++ c!"));"
  else
    c!"\n  " ++ logged U v c!"info"
      (c!"\"(Actual value received by SUT on " ++ c.name ++ c!" after conversion: \" << " ++ convertTo U c.name ++ c!"(" ++
        Cpp.value t.value ++ c!") << \")\"")

def sendText (U : Unicode) (v : Variant) (s : State) (c : Channel) (t : Transition) : Str :=
  c!"\n\n  " ++
  logged U v c!"info" (c!"\"State '" ++ s.id ++ c!"' sends " ++ t.value.stringValue ++ c!" to SUT on " ++ c.name ++
    c!"; \" <<\n    \"if accepted, next state will be '" ++ t.next ++ c!"'.\"") ++ c!"\n" ++ sendInput U v c t

def receiveText (U : Unicode) (v : Variant) (s : State) (c : Channel) (t : Transition) : Str :=
  c!"\n\n  " ++
  logged U v c!"info" (c!"\"State '" ++ s.id ++ c!"' can receive " ++ t.value.stringValue ++ c!" from SUT on " ++ c.name ++
    c!"; \" <<\n    \"if received, next state will be '" ++ t.next ++ c!"'.\"")

def setVerdict (U : Unicode) (e : Str × Outcome) : Str := c!"\n  verdict_." ++ e.1 ++ c!"(" ++ outcomeEnum U e.2 ++ c!");"

/-- The function that enters a state -/
def entry (U : Unicode) (v : Variant) (s : State) : Str :=
  c!"\n\nvoid StateMachine::" ++ stateEntry U s.id ++ c!"()\n{\n  state_ = " ++ stateEnum U s.id ++ c!";\n\n  " ++
  logged U v c!"info" (c!"\"Entered state " ++ s.id ++ c!".\"") ++ (sortEntries s.verdict).flatMap (setVerdict U) ++
  (if s.verdict.isFail then c!"\n\n  end(rtcg::Status::FAIL); // This state fails at least one test"
   else if s.hasIn then
    c!"\n\n  // This state provides an input to the SUT\n  status_ = rtcg::Status::WAIT_IN;" ++
    (match s.in_ with
     | some (c, t) => sendText U v s c t
     | none => [])
   else
    c!"\n\n  // This state expects an output from the SUT\n  status_ = rtcg::Status::WAIT_OUT;" ++
    s.transitionSets.flatMap (fun ts => ts.transitions.flatMap (receiveText U v s ts.channel))) ++
  c!"\n}"

/-- The definitions of the functions of the class -/
def stmBodies (U : Unicode) (v : Variant) (m : Stm) (tc : TransitionContext) (first : Str) : Str :=
  ctor U v tc first ++ helpers U v ++ timeoutCallback U v ++
  (if tc.firstStateHasIn then initialDelayCallback U v first else []) ++
  (if tc.hasIn then inputAcceptedCallback U v tc.inMerged else []) ++
  tc.out.flatMap (outCallback U v) ++ c!"\n\n\n//\n// State machine entry functions\n//" ++ m.states.flatMap (entry U v)

/-! ### the function main -/

def mainArgs (v : Variant) : Str := if v = Variant.ros then c!"int argc, char** argv" else []

def preInit (U : Unicode) (v : Variant) (name : Str) (tc : TransitionContext) : Str :=
  if v = Variant.ros then
    c!"\n  ros::init(argc, argv, \"" ++ name ++ c!"\");\n  ros::NodeHandle nh;\n\n  // Publishers" ++
    tc.in_.flatMap (fun a => c!"\n  auto " ++ publisherName U a.channel ++ c!" = nh.advertise<" ++ channelValueType U a.channel.name ++
      c!">(\"" ++ topicName U a.channel ++ c!"\", 1000);")
  else []

def ctorArgs (U : Unicode) (v : Variant) (tc : TransitionContext) : Str :=
  if v = Variant.ros then commas (tc.in_.map (fun a => publisherName U a.channel)) else []

def init (U : Unicode) (v : Variant) (tc : TransitionContext) : Str :=
  if v = Variant.ros then
    c!"\n  // Subscribers" ++
    (if tc.hasIn then
      c!"\n  auto input_accepted_sub = nh.subscribe(\"input_accepted\", 10, &StateMachine::inputAcceptedCallback, &stm);" else []) ++
    c!"\n" ++
    tc.out.flatMap (fun a => c!"\n  auto " ++ subscriberName U a.channel ++ c!" = nh.subscribe(\"" ++ topicName U a.channel ++
      c!"\", 10, &StateMachine::" ++ callbackName a.channel.name ++ c!", &stm);") ++
    c!"\n\n  // Timers\n  auto timeout_timer = nh.createTimer(ros::Duration(TIMEOUT_SEC), &StateMachine::timeoutCallback, &stm);" ++
    (if tc.firstStateHasIn then
      c!"\n  auto initial_delay_timer = nh.createTimer(ros::Duration(INPUT_DELAY_SEC), &StateMachine::initialDelayCallback, &stm);"
     else [])
  else []

/-- The type of a channel in the context, as C++ and as a word -/
def cppTypeOf (ctx : CppConfig.Context) (ch : Str) : Str :=
  match (GoMap.get? ctx.channelTypes ch).bind (·.base) with
  | some t => stdType t
  | none => []

def typeWord (ctx : CppConfig.Context) (ch : Str) : Str :=
  match (GoMap.get? ctx.channelTypes ch).bind (·.base) with
  | some t => typeString t
  | none => c!"<nil>"

/-- The main loop of the animate variant -/
def animateBody (U : Unicode) (tc : TransitionContext) (ctx : CppConfig.Context) : Str :=
  (if tc.firstStateHasIn then
    c!"\n  std::cout << \"[!] Test is waiting for the SUT to initialise before sending an input.\\n\";" else []) ++
  c!"\n\n  for (auto s = stm.getStatus(); rtcg::status::isRunning(s); s = stm.getStatus())\n  {\n    std::cout << \"\\nType one of the following:\\n\";" ++
  (if tc.hasIn then
    (if tc.firstStateHasIn then
      c!"\n    if (s == rtcg::Status::WAIT_START)\n      std::cout << \"  ready (prepares SUT for inputs)\\n\";\n    else if"
     else c!"\n    if\n") ++
    c!" (s == rtcg::Status::WAIT_IN)\n      std::cout << \"  accept (accepts an input)\\n\";"
   else []) ++
  c!"\n    std::cout << \"  timeout (quits the test with a timeout)\\n\";\n\n    std::cout << \"\\nOr, to enter an output, type its name and the desired value: \\n\";" ++
  (if tc.out = [] then c!"\n    std::cout << \"  No outputs available for this test-case.\\n\";"
   else tc.out.flatMap (fun a =>
    c!"\n    std::cout << \"  " ++ a.channel.name ++ c!" (type: " ++ typeWord ctx a.channel.name ++ c!")\\n\";")) ++
  c!"\n\n    std::cout << \"\\n> \";\n    std::string choice;\n    std::cin >> choice;\n\n    if (choice == \"timeout\")\n      stm.timeoutCallback();" ++
  (if tc.firstStateHasIn then
    c!"\n    else if (choice == \"ready\" && s == rtcg::Status::WAIT_START)\n    stm.initialDelayCallback();" else []) ++
  (if tc.hasIn then
    c!"\n    else if (choice == \"accept\" && s == rtcg::Status::WAIT_IN)\n      stm.inputAcceptedCallback();" else []) ++
  tc.out.flatMap (fun a =>
    c!"\n    else if (choice == \"" ++ a.channel.name ++ c!"\")\n    {\n      " ++ cppTypeOf ctx a.channel.name ++
    c!" in;\n      std::cin >> in;\n\n      stm." ++ callbackName a.channel.name ++ c!"(" ++ convertTo U a.channel.name ++
    c!"(in));\n    }") ++
  c!"\n    else\n      std::cout << \"Sorry, try again.\\n\";\n  }"

def mainBody (U : Unicode) (v : Variant) (tc : TransitionContext) (ctx : CppConfig.Context) : Str :=
  if v = Variant.ros then c!"  ros::spin();\n" else animateBody U tc ctx

def mainFunction (U : Unicode) (v : Variant) (name : Str) (tc : TransitionContext) (ctx : CppConfig.Context) : Str :=
  c!"\nint main(" ++ mainArgs v ++ c!")\n{\n  // Initialisation" ++ preInit U v name tc ++ c!"\n\n  StateMachine stm {" ++
  ctorArgs U v tc ++ c!"};" ++ init U v tc ++ c!"\n\n  // Test loop\n  " ++
  logged U v c!"info" (c!"\"Test " ++ name ++ c!" in main loop.\"") ++ c!"\n" ++ mainBody U v tc ctx ++
  c!"\n\n  auto status = stm.getStatus();\n  " ++
  logged U v c!"info" (c!"\"Test " ++ name ++ c!" finished: \" << status << \".\"") ++
  c!"\n  stm.getVerdict().dump();\n\n  return rtcg::status::exitCode(status);\n}"

/-! ### main.cpp -/

/-- The text of main.cpp; `first` is the ID of the first state -/
def mainText (U : Unicode) (v : Variant) (date name : Str) (m : Stm) (tc : TransitionContext) (ctx : CppConfig.Context) (first : Str) :
    Str :=
  c!"//\n// Test " ++ name ++ c!"\n//\n// Test autogenerated by rtcg on " ++ date ++ c!"\n//\n\n" ++ includes v ctx ++
  c!"\n\n//\n// CONSTANTS\n//\n" ++ constants v ++
  c!"\n\n\n//\n// TEST VERDICTS\n//\n// In non-factorised tests, there will usually only be one test verdict;\n// factorised tests may have multiple.\n//\n" ++
  verdict U v (GoSet.values m.tests) ++
  c!"\n\n\n//\n// STATES\n//\n// Every step in the test has a corresponding state in the test state machine.\n// For non-factorised tests, these relate directly to points on the trace.\n//\n" ++
  stateMeta U m.states ++
  c!"\n\n\n//\n// MAIN TEST CLASS\n//\n// Most of the working parts of the test are here.\n//\n" ++
  stmClass U v m tc first ++ stmBodies U v m tc first ++
  c!"\n\n\n//\n// ENTRY POINT\n//\n" ++ mainFunction U v name tc ctx ++ c!"\n"

/-! ### convert.h -/

/-- The value type of a channel: the one configured, or the one for the type -/
def valueType (v : Variant) (ct : CppConfig.ChannelType) : Str :=
  if ct.hasOverride then ct.override
  else if v = Variant.ros then c!"std_msgs::String"
  else ct.base.elim [] stdType

def msgType (U : Unicode) (v : Variant) (ch : Str) : Str :=
  if v = Variant.ros then channelValueType U ch ++ c!"::ConstPtr&" else channelValueType U ch

def fromBody (v : Variant) (t : RsType) : Str :=
  if v = Variant.ros then
    (if t.isEnum then c!"\n  return std::string(msg->data.c_str());" else c!"\n  return msg->data;  // No conversion required")
  else c!"\n  return msg;  // No conversion required for animate"

def toBody (v : Variant) (t : RsType) : Str :=
  if v = Variant.ros then
    (if t.isEnum then c!"\n  std_msgs::String msg;\n  msg.data = value.c_str();\n  return msg;"
     else c!"\n  return value;  // No conversion required")
  else c!"\n    return value;  // No conversion required for animate"

/-- A function that the user overrides is only declared -/
def bodyOr (ct : CppConfig.ChannelType) (body : RsType → Str) : Str :=
  if ct.hasOverride then c!"; // User override supplied" else c!"\n{" ++ ct.base.elim [] body ++ c!"\n}"

def fromFunction (U : Unicode) (v : Variant) (e : Str × CppConfig.ChannelType) : Str :=
  c!"\n\n" ++ e.2.base.elim [] stdType ++ c!" " ++ convertFrom U e.1 ++ c!"(const " ++ channelMsgType U e.1 ++ c!" msg)" ++
  bodyOr e.2 (fromBody v)

def toFunction (U : Unicode) (v : Variant) (e : Str × CppConfig.ChannelType) : Str :=
  c!"\n\n" ++ channelValueType U e.1 ++ c!" " ++ convertTo U e.1 ++ c!"(const " ++ e.2.base.elim [] stdType ++ c!" value)" ++
  bodyOr e.2 (toBody v)

/-- The text of convert.h -/
def convertText (U : Unicode) (v : Variant) (ctx : CppConfig.Context) : Str :=
  c!"//\n// Conversion functions\n//\n\n#ifndef CONVERT_H_DEFINED\n#define CONVERT_H_DEFINED\n" ++ ctx.includes.flatMap includeLine ++
  c!"\n\n\n// Value type definitions\n//\n// These are used in the test driver wherever we need a plain value of the type\n// expected by the SUT.\n//\n" ++
  c!"// We use #define instead of typedef/using to avoid problems if there are\n// hidden type parameters (for instance, the allocators in ROS strings).\n" ++
  (sortEntries ctx.channelTypes).flatMap (fun e => c!"\n#define " ++ channelValueType U e.1 ++ c!" " ++ valueType v e.2) ++
  c!"\n\n\n// Message type definitions\n//\n// These are used in output callbacks, and refer to the type of messages being\n// sent from the SUT.  These can differ from the value types; for instance, in\n// ROS, they are pointers to values rather than copies.\n" ++
  (sortEntries ctx.channelTypes).flatMap (fun e => c!"\n#define " ++ channelMsgType U e.1 ++ c!" " ++ msgType U v e.1) ++
  c!"\n\n//\n// Conversion functions\n//\n// We use these to convert from basic C++ types (int, std::string, etc) to\n// and from the types mentioned above.\n//\n" ++
  c!"// Wherever a function has 'User override supplied' next to it, there must be a\n// definition of that function somewhere in the compilation unit.\n//\n\n" ++
  c!"// Converting from channel message types to basic types" ++
  (sortEntries ctx.channelTypes).flatMap (fromFunction U v) ++
  c!"\n\n// Converting from basic types to channel value types" ++
  (sortEntries ctx.channelTypes).flatMap (toFunction U v) ++ c!"\n\n#endif // CONVERT_H_DEFINED\n"

end CppText

end Spec

end Rtcg
