import Verif.Proofs.CppItem
import Verif.Spec.CppText

/-
The syntax tree of main.cpp, for each variant.
-/

namespace Rtcg

namespace Spec

namespace Cpp

namespace Tree

open Templates Rtcg.Cpp Tmpl

/-! ### shorthands -/

def stmtsOf : List Stmt → Stmts
  | [] => .nil
  | s :: l => .cons s (stmtsOf l)

def argsOf : List Expr → Args
  | [] => .nil
  | e :: l => .cons e (argsOf l)

/-- `<< a << b` -/
def outs : List Expr → Tail
  | [] => .nil
  | e :: l => .cons c!"<<" e (outs l)

def nm (w : Str) : Expr := .name [w]

/-- `rtcg::Status::X` -/
def status (w : Str) : Expr := .name [c!"rtcg", c!"Status", w]

/-- `f(args)` -/
def call (q : List Str) (as : List Expr) : Expr := .post (.name q) (.call (argsOf as) .nil)

/-- `x.f(args)` -/
def mcall (x f : Str) (as : List Expr) : Expr := .post (.name [x]) (.dot f (.call (argsOf as) .nil))

def run (e : Expr) : Stmt := .expr e

def ty (q : List Str) : CType := ⟨false, q, []⟩

def void : CType := ty [c!"void"]

def auto : CType := ty [c!"auto"]

/-- A log statement -/
def logged (U : Unicode) (v : Variant) (level : Str) (first : Expr) (more : List Expr) : Stmt :=
  if v = Variant.ros then
    .expr (call [c!"ROS_" ++ U.strToUpper level ++ c!"_STREAM"] [.shift first (outs (more ++ [.name [c!"std", c!"endl"]]))])
  else
    .expr (.shift (.name [c!"std", c!"cerr"]) (outs (.str (c!"[" ++ level ++ c!"] ") :: first :: (more ++ [.name [c!"std", c!"endl"]]))))

/-! ### class Verdict -/

def outcomeTy : CType := ty [c!"rtcg", c!"Outcome"]

def verdictItems (U : Unicode) (v : Variant) (tests : List Str) : List Item :=
  [.clsOpen c!"Verdict" none, .access c!"public", .fn (some void) [c!"dump"] [] none] ++
  tests.map (fun t => .fn (some void) [t] [(outcomeTy, c!"new_val")] none) ++
  [.access c!"private"] ++
  tests.map (fun t => .var outcomeTy (t ++ c!"_") (some (.name [c!"rtcg", c!"Outcome", c!"UNSET"]))) ++
  [.clsClose,
   .fn (some void) [c!"Verdict", c!"dump"] []
    (some (stmtsOf (logged U v c!"info" (.str c!"Final outcomes: ") [] ::
      tests.map (fun t => logged U v c!"info" (.str (c!"  " ++ t ++ c!" = ")) [nm (t ++ c!"_")]))))] ++
  tests.map (fun t => .fn (some void) [c!"Verdict", t] [(outcomeTy, c!"new_val")]
    (some (stmtsOf [
      .ite (.eq c!"==" (nm (t ++ c!"_")) (nm c!"new_val")) .ret .skip,
      logged U v c!"info" (.str (c!"Test " ++ t ++ c!" is now ")) [nm c!"new_val", .str c!"; was ", nm (t ++ c!"_"), .str c!"."],
      .expr (.assign (nm (t ++ c!"_")) (nm c!"new_val"))])))

/-! ### the states -/

/-- `State::X` -/
def stateE (U : Unicode) (id : Str) : Expr := .name [c!"State", enumField U id]

def stateItems (U : Unicode) (states : List State) : List Item :=
  [.enum c!"State" (states.map (fun s => enumField U s.id)), .nsOpen c!"state",
   .fn (some ⟨true, [c!"char"], [c!"*"]⟩) [c!"name"] [(ty [c!"State"], c!"s")]
    (some (stmtsOf [
      .switch (nm c!"s") (stmtsOf (states.flatMap (fun s => [.case (stateE U s.id), .retVal (.str s.id)]))),
      .retVal (.str c!"???")])),
   .nsClose]

/-! ### class StateMachine -/

def SM : Str := c!"StateMachine"

def publisherTy : CType := ty [c!"ros", c!"Publisher"]

def ctorParams (U : Unicode) (v : Variant) (tc : TransitionContext) : List Param :=
  if v = Variant.ros then tc.in_.map (fun a => (publisherTy, publisherName U a.channel)) else []

def timerParams (v : Variant) : List Param :=
  if v = Variant.ros then [(⟨true, [c!"ros", c!"TimerEvent"], [c!"&"]⟩, c!"event")] else []

def acceptedParams (v : Variant) : List Param :=
  if v = Variant.ros then [(⟨true, [c!"std_msgs", c!"Bool", c!"ConstPtr"], [c!"&"]⟩, c!"msg")] else []

def outParams (U : Unicode) (c : Channel) : List Param := [(⟨true, [channelMsgType U c.name], []⟩, c!"msg")]

def fields (U : Unicode) (v : Variant) (tc : TransitionContext) : List Item :=
  if v = Variant.ros then tc.in_.map (fun a => .var publisherTy (publisherName U a.channel ++ c!"_") none) else []

def classItems (U : Unicode) (v : Variant) (m : Stm) (tc : TransitionContext) (first : Str) : List Item :=
  [.clsOpen SM (some [c!"rtcg", c!"TestCase"]), .access c!"public", .fn none [SM] (ctorParams U v tc) none,
   .fn (some ⟨false, [c!"Verdict"], [c!"&"]⟩) [c!"getVerdict"] [] none,
   .fn (some void) [c!"timeoutCallback"] (timerParams v) none] ++
  (if tc.firstStateHasIn then [.fn (some void) [c!"initialDelayCallback"] (timerParams v) none] else []) ++
  (if tc.hasIn then [.fn (some void) [c!"inputAcceptedCallback"] (acceptedParams v) none] else []) ++
  tc.out.map (fun a => .fn (some void) [callbackName a.channel.name] (outParams U a.channel) none) ++
  [.access c!"private", .var (ty [c!"Verdict"]) c!"verdict_" none, .var (ty [c!"State"]) c!"state_" (some (stateE U first))] ++
  fields U v tc ++
  m.states.map (fun s => .fn (some void) [stateEntry U s.id] [] none) ++
  [.fn (some ⟨true, [c!"char"], [c!"*"]⟩) [c!"stateName"] [] none,
   .fn (some void) [c!"end"] [(ty [c!"rtcg", c!"Status"], c!"status")] none, .clsClose]

/-- `enterX();` -/
def enterS (U : Unicode) (id : Str) : Stmt := .expr (call [stateEntry U id] [])

/-- `end(rtcg::Status::X);` -/
def endS (w : Str) : Stmt := .expr (call [c!"end"] [status w])

def installs (U : Unicode) (v : Variant) (tc : TransitionContext) : List Stmt :=
  if v = Variant.ros then
    tc.in_.map (fun a => .expr (.assign (nm (publisherName U a.channel ++ c!"_")) (nm (publisherName U a.channel))))
  else []

def ctorItem (U : Unicode) (v : Variant) (tc : TransitionContext) (first : Str) : Item :=
  .fn none [SM, SM] (ctorParams U v tc)
    (some (stmtsOf ((if tc.firstStateHasIn then .expr (.assign (nm c!"status_") (status c!"WAIT_START")) else enterS U first) ::
      installs U v tc)))

def running (e : Expr) : Expr := call [c!"rtcg", c!"status", c!"isRunning"] [e]

def helperItems (U : Unicode) (v : Variant) : List Item :=
  [.fn (some ⟨false, [c!"Verdict"], [c!"&"]⟩) [SM, c!"getVerdict"] [] (some (stmtsOf [.retVal (nm c!"verdict_")])),
   .fn (some ⟨true, [c!"char"], [c!"*"]⟩) [SM, c!"stateName"] []
    (some (stmtsOf [.retVal (call [c!"state", c!"name"] [nm c!"state_"])])),
   .fn (some void) [SM, c!"end"] [(ty [c!"rtcg", c!"Status"], c!"s")]
    (some (stmtsOf ([
      .ite (.un c!"!" (running (nm c!"status_"))) (.block (stmtsOf [
        logged U v c!"error" (.str c!"Tried to end test twice (first as ") [nm c!"status_", .str c!", then as ", nm c!"s", .str c!"."],
        .ret])) .skip,
      .ite (running (nm c!"s")) (.block (stmtsOf [
        logged U v c!"error" (.str c!"Tried to end with a non-ending status ") [nm c!"s", .str c!"."],
        .expr (.assign (nm c!"s") (status c!"BUG"))])) .skip,
      .expr (.assign (nm c!"status_") (nm c!"s"))] ++
      (if v = Variant.ros then [.expr (call [c!"ros", c!"shutdown"] [])] else []))))]

def timeoutItem (U : Unicode) (v : Variant) : Item :=
  .fn (some void) [SM, c!"timeoutCallback"] (timerParams v)
    (some (stmtsOf [
      .ite (.un c!"!" (running (nm c!"status_"))) .ret .skip,
      logged U v c!"info" (.str c!"Timeout!") [],
      endS c!"TIMEOUT"]))

def delayItem (U : Unicode) (v : Variant) (first : Str) : Item :=
  .fn (some void) [SM, c!"initialDelayCallback"] (timerParams v)
    (some (stmtsOf [
      .ite (.eq c!"!=" (nm c!"status_") (status c!"WAIT_START")) .ret .skip,
      logged U v c!"info" (.str c!"Initial delay finished, now entering first state.") [],
      enterS U first]))

/-- What follows the label of a state that sends an input -/
def acceptedCase (U : Unicode) (v : Variant) (e : Str × List Transition) : List Stmt :=
  [.case (stateE U e.1),
   logged U v c!"info" (.str (c!"Accepted input on state " ++ e.1 ++ c!" as expected.")) [],
   .expr (call [e.2.head?.elim [] (fun t => stateEntry U t.next)] []),
   .brk]

def acceptedItem (U : Unicode) (v : Variant) (inMerged : GoMap Str (List Transition)) : Item :=
  .fn (some void) [SM, c!"inputAcceptedCallback"] (acceptedParams v)
    (some (stmtsOf [
      .switch (nm c!"state_") (stmtsOf ((sortEntries inMerged).flatMap (acceptedCase U v) ++
        [.dflt, logged U v c!"error" (.str c!"Accepted input in unexpected state") [call [c!"stateName"] []], endS c!"BUG"]))]))

/-- A number, with its sign -/
def intE (i : Int64) : Expr :=
  if i.toInt < 0 then .un c!"-" (.num (decNat i.toInt.natAbs)) else .num (decNat i.toInt.natAbs)

def valueE : Value → Expr
  | .none => .name []
  | .int i => intE i
  | .enum s => .str s

/-- The test of a value -/
def testE (x : Value) : Expr :=
  if x.type.isEnum then .eq c!"==" (mcall c!"value" c!"compare" [.str x.stringValue]) (.num c!"0") else .eq c!"==" (nm c!"value") (valueE x)

def chain (U : Unicode) (other : Stmt) : List Transition → Stmt
  | [] => other
  | t :: ts => .ite (testE t.value) (enterS U t.next) (chain U other ts)

def outCase (U : Unicode) (v : Variant) (c : Channel) (e : Str × List Transition) : List Stmt :=
  [.case (stateE U e.1),
   chain U (.block (stmtsOf [
      logged U v c!"info" (.str c!"Unexpected value ") [nm c!"value", .str (c!" for " ++ c.string ++ c!" in state " ++ e.1 ++ c!".")],
      endS c!"OFF_SCRIPT"])) e.2,
   .brk]

def outItem (U : Unicode) (v : Variant) (a : AggregateSet) : Item :=
  .fn (some void) [SM, callbackName a.channel.name] (outParams U a.channel)
    (some (stmtsOf [
      .declEq auto c!"value" (call [convertFrom U a.channel.name] [nm c!"msg"]),
      .switch (nm c!"state_") (stmtsOf ((sortEntries a.states).flatMap (outCase U v a.channel) ++
        [.dflt,
         logged U v c!"info" (.str c!"Output ") [nm c!"value", .str (c!" on " ++ a.channel.string ++ c!" in unexpected state "),
            call [c!"stateName"] [], .str c!"."],
         endS c!"OFF_SCRIPT"]))]))

/-- `toX(value)` -/
def convE (U : Unicode) (c : Channel) (x : Value) : Expr := call [convertTo U c.name] [valueE x]

def sendS (U : Unicode) (v : Variant) (c : Channel) (t : Transition) : Stmt :=
  if v = Variant.ros then .expr (mcall (publisherName U c ++ c!"_") c!"publish" [convE U c t.value])
  else logged U v c!"info" (.str (c!"(Actual value received by SUT on " ++ c.name ++ c!" after conversion: "))
    [convE U c t.value, .str c!")"]

def sendingS (U : Unicode) (v : Variant) (s : State) (c : Channel) (t : Transition) : List Stmt :=
  [logged U v c!"info" (.str (c!"State '" ++ s.id ++ c!"' sends " ++ t.value.stringValue ++ c!" to SUT on " ++ c.name ++ c!"; "))
    [.str (c!"if accepted, next state will be '" ++ t.next ++ c!"'.")],
   sendS U v c t]

def receivingS (U : Unicode) (v : Variant) (s : State) (c : Channel) (t : Transition) : Stmt :=
  logged U v c!"info" (.str (c!"State '" ++ s.id ++ c!"' can receive " ++ t.value.stringValue ++ c!" from SUT on " ++ c.name ++ c!"; "))
    [.str (c!"if received, next state will be '" ++ t.next ++ c!"'.")]

def outcomeE (U : Unicode) (o : Outcome) : Expr := .name [c!"rtcg", c!"Outcome", enumField U o.string]

/-- What an entry function does after setting the verdicts -/
def settleS (U : Unicode) (v : Variant) (s : State) : List Stmt :=
  if s.verdict.isFail then [endS c!"FAIL"]
  else if s.hasIn then
    .expr (.assign (nm c!"status_") (status c!"WAIT_IN")) ::
    (match s.in_ with
     | some (c, t) => sendingS U v s c t
     | none => [])
  else
    .expr (.assign (nm c!"status_") (status c!"WAIT_OUT")) ::
    s.transitionSets.flatMap (fun ts => ts.transitions.map (receivingS U v s ts.channel))

def entryItem (U : Unicode) (v : Variant) (s : State) : Item :=
  .fn (some void) [SM, stateEntry U s.id] []
    (some (stmtsOf ([
      .expr (.assign (nm c!"state_") (stateE U s.id)),
      logged U v c!"info" (.str (c!"Entered state " ++ s.id ++ c!".")) []] ++
      (sortEntries s.verdict).map (fun e => .expr (mcall c!"verdict_" e.1 [outcomeE U e.2])) ++
      settleS U v s)))

def bodyItems (U : Unicode) (v : Variant) (m : Stm) (tc : TransitionContext) (first : Str) : List Item :=
  [ctorItem U v tc first] ++ helperItems U v ++ [timeoutItem U v] ++
  (if tc.firstStateHasIn then [delayItem U v first] else []) ++
  (if tc.hasIn then [acceptedItem U v tc.inMerged] else []) ++
  tc.out.map (outItem U v) ++ m.states.map (entryItem U v)

/-! ### the function main -/

def constants (v : Variant) : List Item :=
  if v = Variant.ros then
    [.var ⟨true, [c!"int"], []⟩ c!"TIMEOUT_SEC" (some (.num c!"15")), .var ⟨true, [c!"int"], []⟩ c!"INPUT_DELAY_SEC" (some (.num c!"3"))]
  else []

def mainParams (v : Variant) : List Param :=
  if v = Variant.ros then [(ty [c!"int"], c!"argc"), (⟨false, [c!"char"], [c!"*", c!"*"]⟩, c!"argv")] else []

/-- `auto X = nh.advertise<T>("topic", 1000);` -/
def advertise (U : Unicode) (a : AggregateSet) : Stmt :=
  .declEq auto (publisherName U a.channel) (.post (nm c!"nh") (.dot c!"advertise" (.inst (ty [channelValueType U a.channel.name])
    (.call (argsOf [.str (topicName U a.channel), .num c!"1000"]) .nil))))

def preInit (U : Unicode) (v : Variant) (name : Str) (tc : TransitionContext) : List Stmt :=
  if v = Variant.ros then
    [.expr (call [c!"ros", c!"init"] [nm c!"argc", nm c!"argv", .str name]), .decl (ty [c!"ros", c!"NodeHandle"]) c!"nh"] ++
    tc.in_.map (advertise U)
  else []

def ctorArgs (U : Unicode) (v : Variant) (tc : TransitionContext) : List Expr :=
  if v = Variant.ros then tc.in_.map (fun a => nm (publisherName U a.channel)) else []

def method (f : Str) : Expr := .un c!"&" (.name [SM, f])

def stmE : Expr := .un c!"&" (nm c!"stm")

def timer (x k f : Str) : Stmt :=
  .declEq auto x (mcall c!"nh" c!"createTimer" [call [c!"ros", c!"Duration"] [nm k], method f, stmE])

def subscribe (x topic f : Str) : Stmt :=
  .declEq auto x (mcall c!"nh" c!"subscribe" [.str topic, .num c!"10", method f, stmE])

def init (U : Unicode) (v : Variant) (tc : TransitionContext) : List Stmt :=
  if v = Variant.ros then
    (if tc.hasIn then [subscribe c!"input_accepted_sub" c!"input_accepted" c!"inputAcceptedCallback"] else []) ++
    tc.out.map (fun a => subscribe (subscriberName U a.channel) (topicName U a.channel) (callbackName a.channel.name)) ++
    [timer c!"timeout_timer" c!"TIMEOUT_SEC" c!"timeoutCallback"] ++
    (if tc.firstStateHasIn then [timer c!"initial_delay_timer" c!"INPUT_DELAY_SEC" c!"initialDelayCallback"] else [])
  else []

/-- `std::cout << "s";` -/
def say (s : Str) : Stmt := .expr (.shift (.name [c!"std", c!"cout"]) (.cons c!"<<" (.str s) .nil))

def readS (x : Str) : Stmt := .expr (.shift (.name [c!"std", c!"cin"]) (.cons c!">>" (nm x) .nil))

def typeE (t : RsType) : CType :=
  if t.isEnum then ty [c!"std", c!"string"]
  else if t.isNat then ty [c!"unsigned int"]
  else if t.isInt then ty [c!"int"]
  else if t.isReal then ty [c!"double"]
  else ⟨false, [c!"void"], [c!"*"]⟩

/-- The type of a channel in the context -/
def baseOf (ctx : CppConfig.Context) (ch : Str) : Option RsType := (GoMap.get? ctx.channelTypes ch).bind (·.base)

def outChoice (U : Unicode) (ctx : CppConfig.Context) (a : AggregateSet) : Stmt :=
  .block (stmtsOf [
    .decl ((baseOf ctx a.channel.name).elim (ty []) typeE) c!"in",
    readS c!"in",
    .expr (mcall c!"stm" (callbackName a.channel.name) [call [convertTo U a.channel.name] [nm c!"in"]])])

def choiceIs (w : Str) : Expr := .eq c!"==" (nm c!"choice") (.str w)

def statusIs (w : Str) : Expr := .eq c!"==" (nm c!"s") (status w)

def outChoices (U : Unicode) (ctx : CppConfig.Context) : List AggregateSet → Stmt
  | [] => say c!"Sorry, try again.\n"
  | a :: l => .ite (choiceIs a.channel.name) (outChoice U ctx a) (outChoices U ctx l)

def acceptChoice (U : Unicode) (tc : TransitionContext) (ctx : CppConfig.Context) : Stmt :=
  if tc.hasIn then .ite (.and (choiceIs c!"accept") (statusIs c!"WAIT_IN")) (.expr (mcall c!"stm" c!"inputAcceptedCallback" []))
    (outChoices U ctx tc.out)
  else outChoices U ctx tc.out

def readyChoice (U : Unicode) (tc : TransitionContext) (ctx : CppConfig.Context) : Stmt :=
  if tc.firstStateHasIn then .ite (.and (choiceIs c!"ready") (statusIs c!"WAIT_START")) (.expr (mcall c!"stm" c!"initialDelayCallback" []))
    (acceptChoice U tc ctx)
  else acceptChoice U tc ctx

def choices (U : Unicode) (tc : TransitionContext) (ctx : CppConfig.Context) : Stmt :=
  .ite (choiceIs c!"timeout") (.expr (mcall c!"stm" c!"timeoutCallback" [])) (readyChoice U tc ctx)

def prompts (tc : TransitionContext) (ctx : CppConfig.Context) : List Stmt :=
  [say c!"\nType one of the following:\n"] ++
  (if tc.hasIn then
    (if tc.firstStateHasIn then
      [.ite (statusIs c!"WAIT_START") (say c!"  ready (prepares SUT for inputs)\n")
        (.ite (statusIs c!"WAIT_IN") (say c!"  accept (accepts an input)\n") .skip)]
     else [.ite (statusIs c!"WAIT_IN") (say c!"  accept (accepts an input)\n") .skip])
   else []) ++
  [say c!"  timeout (quits the test with a timeout)\n", say c!"\nOr, to enter an output, type its name and the desired value: \n"] ++
  (if tc.out = [] then [say c!"  No outputs available for this test-case.\n"]
   else tc.out.map (fun a => say (c!"  " ++ a.channel.name ++ c!" (type: " ++ CppText.typeWord ctx a.channel.name ++ c!")\n"))) ++
  [say c!"\n> "]

def getStatus : Expr := mcall c!"stm" c!"getStatus" []

def animateLoop (U : Unicode) (tc : TransitionContext) (ctx : CppConfig.Context) : Stmt :=
  .loop auto c!"s" getStatus (running (nm c!"s")) (.assign (nm c!"s") getStatus)
    (.block (stmtsOf (prompts tc ctx ++ [.decl (ty [c!"std", c!"string"]) c!"choice", readS c!"choice", choices U tc ctx])))

def mainBody (U : Unicode) (v : Variant) (tc : TransitionContext) (ctx : CppConfig.Context) : List Stmt :=
  if v = Variant.ros then [.expr (call [c!"ros", c!"spin"] [])]
  else
    (if tc.firstStateHasIn then [say c!"[!] Test is waiting for the SUT to initialise before sending an input.\n"] else []) ++
    [animateLoop U tc ctx]

def mainItem (U : Unicode) (v : Variant) (name : Str) (tc : TransitionContext) (ctx : CppConfig.Context) : Item :=
  .fn (some (ty [c!"int"])) [c!"main"] (mainParams v)
    (some (stmtsOf (preInit U v name tc ++ [.declBraces (ty [SM]) c!"stm" (argsOf (ctorArgs U v tc))] ++ init U v tc ++
      [logged U v c!"info" (.str (c!"Test " ++ name ++ c!" in main loop.")) []] ++ mainBody U v tc ctx ++
      [.declEq auto c!"status" getStatus,
       logged U v c!"info" (.str (c!"Test " ++ name ++ c!" finished: ")) [nm c!"status", .str c!"."],
       .expr (.post (nm c!"stm") (.dot c!"getVerdict" (.call .nil (.dot c!"dump" (.call .nil .nil))))),
       .retVal (call [c!"rtcg", c!"status", c!"exitCode"] [nm c!"status"])])))

/-! ### main.cpp -/

/-- The syntax tree of main.cpp; `first` is the ID of the first state -/
def mainItems (U : Unicode) (v : Variant) (name : Str) (m : Stm) (tc : TransitionContext) (ctx : CppConfig.Context) (first : Str) :
    List Item :=
  constants v ++ verdictItems U v (GoSet.values m.tests) ++ stateItems U m.states ++ classItems U v m tc first ++
  bodyItems U v m tc first ++ [mainItem U v name tc ctx]

end Tree

end Cpp

end Spec

end Rtcg
