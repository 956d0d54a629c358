import Verif.Spec.CppRun
import Verif.Spec.CppNames
import Verif.Model.Harness
import Verif.Spec.Stm

/-
How the fields of a running test program, and what it does, stand for the configurations of `Harness`: a small specification.
-/

namespace Rtcg

namespace Spec

namespace Cpp

open Templates Rtcg.Cpp

/-! ### values -/

/-- `rtcg::Status` -/
def statusWord : Status → Str
  | .waitStart => c!"WAIT_START"
  | .waitIn => c!"WAIT_IN"
  | .waitOut => c!"WAIT_OUT"
  | .offScript => c!"OFF_SCRIPT"
  | .timeout => c!"TIMEOUT"
  | .fail => c!"FAIL"
  | .bug => c!"BUG"

def statusVal (s : Status) : Val := .enum [c!"rtcg", c!"Status", statusWord s]

/-- `rtcg::Outcome`, by the codes of outcomes -/
def outcomeWord (o : Outcome) : Str :=
  if o.val = 0 then c!"UNSET" else if o.val = 1 then c!"INC" else if o.val = 2 then c!"FAIL" else c!"PASS"

def outcomeVal (o : Outcome) : Val := .enum [c!"rtcg", c!"Outcome", outcomeWord o]

/-- `State` -/
def stateVal (U : Unicode) (id : Str) : Val := .enum [c!"State", enumField U id]

/-- A value of a channel -/
def valueVal : Value → Val
  | .none => .void
  | .int i => .int i.toInt
  | .enum s => .str s

/-- Values that are compared alike -/
def SameKind (a b : Value) : Prop := a.type.isEnum = b.type.isEnum

/-! ### names -/

/-- The names of a program do not clash, and what it refers to is there: the members of its classes and of the enumeration of states differ,
the conversions are not hidden by members of the class StateMachine, and the transitions and verdicts are about states and tests of the
machine -/
structure GoodNames (U : Unicode) (v : Variant) (m : Stm) : Prop where
  members : (c!"StateMachine" :: (inherited ++ classMembers U v m)).Nodup
  verdict : (verdictMembers m).Nodup
  states : (m.states.map (fun s => enumField U s.id)).Nodup
  convert : ∀ s ∈ m.states, ∀ ts ∈ s.transitionSets, convertTo U ts.channel.name ∉ classMembers U v m ∧
    convertFrom U ts.channel.name ∉ classMembers U v m
  nexts : ∀ s ∈ m.states, ∀ ts ∈ s.transitionSets, ∀ t ∈ ts.transitions, t.next ∈ m.states.map (·.id)
  verdicts : ∀ s ∈ m.states, GoMap.WF s.verdict ∧ ∀ e ∈ s.verdict, e.1 ∈ GoSet.values m.tests

/-- The functions and methods of ROS that programs call, and how many arguments they take (for a method, with the object) -/
def rosFunctions : List (List Str × Nat) :=
  [([c!"ros", c!"init"], 3), ([c!"ros", c!"shutdown"], 0), ([c!"ros", c!"Duration"], 1), ([c!".publish"], 2), ([c!".subscribe"], 5),
    ([c!".createTimer"], 4)]

/-- The libraries declare what the program needs: streams, the conversions, and (for ROS) the parts of ROS -/
structure Provides (L : Lib) (U : Unicode) (v : Variant) (m : Stm) : Prop where
  std : ∀ x ∈ [c!"cerr", c!"cout", c!"endl"], L.known [c!"std", x] = true
  convert : ∀ s ∈ m.states, ∀ ts ∈ s.transitionSets, L.takes [convertTo U ts.channel.name] 1 = true ∧
    L.takes [convertFrom U ts.channel.name] 1 = true
  ros : v = .ros → (∀ x ∈ [c!"NodeHandle", c!"Publisher"], L.known [c!"ros", x] = true) ∧ (∀ f ∈ rosFunctions, L.takes f.1 f.2 = true) ∧
    ∀ s ∈ m.states, ∀ ts ∈ s.transitionSets, L.takes [c!".advertise", channelValueType U ts.channel.name] 3 = true ∧
      ∀ args, ∃ h, L.val [c!".advertise", channelValueType U ts.channel.name] args = .lib h

/-! ### what is sent -/

/-- What is said before the value that is sent (animate) -/
def sentWords (ch : Str) : Str := c!"(Actual value received by SUT on " ++ ch ++ c!" after conversion: "

/-- Sending: publishing (ros), or saying what the SUT receives (animate) -/
def isSend (v : Variant) : Effect → Bool
  | .call q _ => v = .ros && q = [c!".publish"]
  | .out vs => v = .animate && match vs with
    | [_, _, .str s, _, _, _] => c!"(Actual value received by SUT on ".isPrefixOf s
    | _ => false

/-- The publisher of a channel: what `advertise` returned -/
def publisher (L : Lib) (U : Unicode) (c : Channel) : Val :=
  L.val [c!".advertise", channelValueType U c.name] [.lib (L.make [c!"ros", c!"NodeHandle"]), .str (topicName U c), .int 1000]

/-- Sending a value on a channel, as it can be seen -/
def sendEffect (L : Lib) (U : Unicode) (v : Variant) (x : Channel × Value) : Effect :=
  if v = .ros then .call [c!".publish"] [publisher L U x.1, L.val [convertTo U x.1.name] [valueVal x.2]]
  else .out [.glob [c!"std", c!"cerr"], .str c!"[info] ", .str (sentWords x.1.name), L.val [convertTo U x.1.name] [valueVal x.2], .str c!")",
    .glob [c!"std", c!"endl"]]

/-! ### the fields -/

/-- The object `p` of class StateMachine is in the configuration `c`.  (What was sent is not in a field.) -/
structure Holds (L : Lib) (U : Unicode) (v : Variant) (m : Stm) (p : List Str) (c : Harness.Config) (st : St) : Prop where
  status : st.mem (p ++ [c!"status_"]) = some (statusVal c.status)
  state : st.mem (p ++ [c!"state_"]) = some (stateVal U c.state)
  known : c.state ∈ m.states.map (·.id)
  object : st.mem (p ++ [c!"verdict_"]) = some (.obj (p ++ [c!"verdict_"]) [c!"Verdict"])
  tests : ∀ t ∈ GoSet.values m.tests, ∃ o, GoMap.get? c.verdict t = some o ∧ st.mem (p ++ [c!"verdict_", t ++ c!"_"]) = some (outcomeVal o)
  publishers : v = .ros → ∀ a ∈ (TransitionContext.make m).in_,
    st.mem (p ++ [publisherName U a.channel ++ c!"_"]) = some (publisher L U a.channel)

/-! ### callbacks -/

/-- The method that is called -/
def methodOf : Harness.Callback → Str
  | .timeout => c!"timeoutCallback"
  | .start => c!"initialDelayCallback"
  | .accepted => c!"inputAcceptedCallback"
  | .output c _ => callbackName c.name

/-- The machine has the callback, and the value that comes with an output is of the kind that the channel has -/
def HasCallback (m : Stm) : Harness.Callback → Prop
  | .timeout => True
  | .start => ∃ s, m.states.head? = some s ∧ ∃ ts ∈ s.transitionSets, ts.channel.kind = kIn
  | .accepted => ∃ s ∈ m.states, ∃ ts ∈ s.transitionSets, ts.channel.kind = kIn
  | .output c x => (∃ s ∈ m.states, ∃ ts ∈ s.transitionSets, ts.channel = c) ∧ c.kind ≠ kIn ∧ x ≠ .none ∧
    ∀ s ∈ m.states, ∀ ts ∈ s.transitionSets, ts.channel = c → ∀ t ∈ ts.transitions, SameKind t.value x

/-- The arguments of a callback: for an output, a message that stands for the value; for the others, a message or timer event that is not
looked at (ros) or nothing (animate) -/
def ArgsOf (L : Lib) (U : Unicode) (v : Variant) : Harness.Callback → List Val → Prop
  | .output c x, args => ∃ msg, args = [msg] ∧ L.val [convertFrom U c.name] [msg] = valueVal x
  | _, args => args.length = if v = .ros then 1 else 0

/-! ### the program as a whole -/

/-- What a log statement puts out -/
def logEff (U : Unicode) (v : Variant) (level : Str) (vs : List Val) : Effect :=
  if v = .ros then .out (.glob [c!"ROS_" ++ U.strToUpper level ++ c!"_STREAM"] :: (vs ++ [.glob [c!"std", c!"endl"]]))
  else .out (.glob [c!"std", c!"cerr"] :: .str (c!"[" ++ level ++ c!"] ") :: (vs ++ [.glob [c!"std", c!"endl"]]))

/-- Where `main` keeps its object of class StateMachine -/
def machineAt : List Str := [c!"main", c!"stm"]

/-- The last things that a test program says when the test has ended: its status, and the outcome of every test -/
def report (U : Unicode) (v : Variant) (name : Str) (tests : List Str) (c : Harness.Config) : List Effect :=
  [logEff U v c!"info" [.str (c!"Test " ++ name ++ c!" finished: "), statusVal c.status, .str c!"."],
   logEff U v c!"info" [.str c!"Final outcomes: "]] ++
  tests.map (fun t => logEff U v c!"info" [.str (c!"  " ++ t ++ c!" = "), outcomeVal ((GoMap.get? c.verdict t).getD Outcome.unset)])

/-- A callback as ROS calls it -/
def eventOf (x : Harness.Callback × List Val) : Event := ⟨[c!"StateMachine", methodOf x.1], machineAt, x.2⟩

/-- The node of a ROS program -/
def node (L : Lib) : Val := .lib (L.make [c!"ros", c!"NodeHandle"])

/-- Subscribing a method to a topic -/
def subscription (L : Lib) (topic f : Str) : Effect :=
  .call [c!".subscribe"] [node L, .str topic, .int 10, .addr [c!"StateMachine", f], .addr machineAt]

/-- A timer that calls a method after some seconds -/
def timerFor (L : Lib) (k : Int) (f : Str) : Effect :=
  .call [c!".createTimer"] [node L, L.val [c!"ros", c!"Duration"] [.int k], .addr [c!"StateMachine", f], .addr machineAt]

/-- What a ROS program subscribes to, and its timers: every output of the machine by its topic, the acceptance of inputs (if there are any), a
timeout after 15 seconds and (if the first state has an input) the first input after 3 seconds -/
structure Wired (L : Lib) (U : Unicode) (m : Stm) (st : St) : Prop where
  outputs : ∀ s ∈ m.states, ∀ ts ∈ s.transitionSets, ts.channel.kind ≠ kIn →
    subscription L (topicName U ts.channel) (callbackName ts.channel.name) ∈ st.eff
  accepted : (∃ s ∈ m.states, ∃ ts ∈ s.transitionSets, ts.channel.kind = kIn) →
    subscription L c!"input_accepted" c!"inputAcceptedCallback" ∈ st.eff
  timeout : timerFor L 15 c!"timeoutCallback" ∈ st.eff
  delay : (∃ s, m.states.head? = some s ∧ ∃ ts ∈ s.transitionSets, ts.channel.kind = kIn) →
    timerFor L 3 c!"initialDelayCallback" ∈ st.eff

/-! ### typing -/

/-- Is it a command at this time, rather than the name of an output? -/
def isCommand (m : Stm) (c : Harness.Config) (w : Str) : Bool :=
  w = c!"timeout" || ((TransitionContext.make m).firstStateHasIn && (w = c!"ready" && c.status = .waitStart)) ||
    ((TransitionContext.make m).hasIn && (w = c!"accept" && c.status = .waitIn))

/-- What is typed: a command, the name of an output and its value, or something else, which is passed over -/
def typedOne (m : Stm) (c : Harness.Config) (w : Str × Value) : List Str :=
  if isCommand m c w.1 then [w.1]
  else if (TransitionContext.make m).out.any (fun a => a.channel.name = w.1) then [w.1, w.2.stringValue]
  else [w.1]

/-- What is typed until the test ends -/
def typed (m : Stm) : Harness.Config → List (Str × Value) → List Str
  | _, [] => []
  | c, w :: ws => if c.status.isRunning then typedOne m c w ++ typed m (Harness.animateStep m c w.1 w.2) ws else []

/-- The type that a channel has in the context -/
def typeOf (ctx : CppConfig.Context) (ch : Str) : Option RsType := (GoMap.get? ctx.channelTypes ch).bind (·.base)

/-- A value of a type -/
def FitsType (t : RsType) : Value → Prop
  | .none => False
  | .enum _ => t.isEnum = true
  | .int i => t.isInt = true ∨ t.isNat = true ∧ 0 ≤ i.toInt

/-- A value that can be typed for an output: it is of the type that the channel has in the context, and the conversions do not change it -/
def CanType (L : Lib) (U : Unicode) (ctx : CppConfig.Context) (c : Channel) (x : Value) : Prop :=
  (∃ t, typeOf ctx c.name = some t ∧ FitsType t x) ∧
    L.val [convertFrom U c.name] [L.val [convertTo U c.name] [valueVal x]] = valueVal x

/-! ### programs as texts -/

/-- The program that several files make together, if all of them are C++ -/
def program (texts : List Str) : Option Prog := (texts.mapM (fun t => parse (lex t))).map (fun files => files.flatMap (facts []))

/-- A name of letters, digits and underscores that does not begin with a digit -/
def WordName (w : Str) : Prop := w.head?.any (fun c => wordChar c && !digit c) = true ∧ w.all wordChar = true

/-- A test whose names can be names in C++: channels are called by words, there are values and they can be put in quotes, tests are called by
names other than keywords, and no two members of a class, no two variables of `main`, and no member and a conversion, are called alike -/
structure WellNamed (U : Unicode) (v : Variant) (m : Stm) : Prop where
  channels : ∀ s ∈ m.states, ∀ ts ∈ s.transitionSets, WordName ts.channel.name
  values : ∀ s ∈ m.states, ∀ ts ∈ s.transitionSets, ∀ t ∈ ts.transitions, GoodValue t.value
  tests : ∀ t ∈ GoSet.values m.tests, Ident t
  members : (classMembers U v m ++ inherited).Nodup
  verdict : (verdictMembers m).Nodup
  convert : ∀ s ∈ m.states, ∀ ts ∈ s.transitionSets, convertTo U ts.channel.name ∉ classMembers U v m ∧
    convertFrom U ts.channel.name ∉ classMembers U v m
  locals : v = .ros → (rosLocals U m).Nodup

/-- A well-named test, the rest of which can be put in quotes, comments and directives -/
structure GoodTest (U : Unicode) (date : Str) (c : CppConfig.Config) (name : Str) (m : Stm) : Prop extends WellNamed U c.variant m where
  date : OneLine date
  name : Plain name
  includes : ∀ i ∈ c.includes, OneLine i.src

/-- The program of a test: rtcg.h, rtcg.cpp and the main.cpp that the templates give -/
def Generated (U : Unicode) (date : Str) (c : CppConfig.Config) (types : TypeMap) (name : Str) (m : Stm) (P : Prog) : Prop :=
  ∃ text, Tmpl.render U date (.mainCpp c.variant name m (TransitionContext.make m) (c.process types)) = (text, .ok ()) ∧
    program [TemplateFiles.rtcgH, TemplateFiles.rtcgCpp, text] = some P

/-- The object `p` has gone from one configuration to another: its fields say so; what was sent meanwhile, and only that, was sent; ROS was
shut down if the test has ended by this; and nothing was read -/
structure Went (L : Lib) (U : Unicode) (v : Variant) (m : Stm) (p : List Str) (c c' : Harness.Config) (st st' : St) : Prop where
  holds : Holds L U v m p c' st'
  sent : ∃ sent eff, c'.sent = c.sent ++ sent ∧ st'.eff = st.eff ++ eff ∧ eff.filter (isSend v) = sent.map (sendEffect L U v) ∧
    eff.any isShutdown = (decide (v = .ros) && c.status.isRunning && !c'.status.isRunning)
  kept : st'.input = st.input ∧ st'.events = st.events ∧ st'.loc = st.loc

end Cpp

end Spec

end Rtcg
