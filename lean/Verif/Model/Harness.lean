import Verif.Model.Stm

/-
What the generated C++ test programs do: the class StateMachine and its callbacks as produced by the templates in
internal/gen/cpp/embed/templates from a machine and its template context, and the helpers of the prelude.

Simplifications: the templates are modelled by the meaning of the C++ they expand to, not by its text.  States are known by
their IDs and callbacks by their channels (the enum constants and function names made from them are C45).  Logging is
left out.  A value that a callback receives is the value after conversion; the C++ comparisons (`compare(...) == 0` for
enumerations, `==` otherwise) are equality of values; a transition without a value makes a program that does not compile.
-/

namespace Rtcg

/-- rtcg::Status, prelude/rtcg.h:34-45 -/
inductive Status where
  | waitStart | waitIn | waitOut | offScript | timeout | fail | bug
  deriving DecidableEq, Repr

namespace Status

/-- rtcg::status::isRunning, prelude/rtcg.cpp:69-80 -/
def isRunning : Status → Bool
  | .waitStart => true
  | .waitIn => true
  | .waitOut => true
  | _ => false

/-- rtcg::status::exitCode, prelude/rtcg.cpp:82-93 -/
def exitCode : Status → Int
  | .fail => 1
  | .bug => 2
  | _ => 0

end Status

namespace Harness

/-- The fields of StateMachine, stm.cpp.tmpl:32-33 and prelude/rtcg.h:70, plus what it has sent to the SUT so far. -/
structure Config where
  state : Str
  status : Status
  verdict : GoMap Str Outcome
  sent : List (Channel × Value)
  deriving DecidableEq, Repr

/-- The callbacks of StateMachine, stm.cpp.tmpl:17-30, with the (converted) value of an output. -/
inductive Callback where
  | timeout
  | start
  | accepted
  | output (c : Channel) (v : Value)
  deriving DecidableEq, Repr

/-- StateMachine::end, stm.cpp.tmpl:67-84 -/
def finish (s : Status) (c : Config) : Config :=
  if !c.status.isRunning then c
  else if s.isRunning then { c with status := .bug }
  else { c with status := s }

/-- The calls of verdict setters at the start of an entry function, state_entry.cpp.tmpl:10-12; each sets one field of the
Verdict class, verdict.cpp.tmpl:32-39.  (Templates visit maps in key order; the keys are distinct, so the order is
immaterial.) -/
def setVerdicts (v : Verdict) (c : Config) : Config :=
  { c with verdict := v.foldl (fun m to => GoMap.set m to.1 to.2) c.verdict }

/-- The rest of an entry function, state_entry.cpp.tmpl:15-42 -/
def settle (s : State) (c : Config) : Config :=
  if s.verdict.isFail then finish .fail c
  else if s.hasIn then
    match s.in_ with
    | none => { c with status := .waitIn }
    | some (ch, t) => { c with status := .waitIn, sent := c.sent ++ [(ch, t.value)] }
  else { c with status := .waitOut }

/-- The entry function of the state called `id`, stm.cpp.tmpl:139-148.  (Without such a state the call does not compile; here
only the state variable changes.) -/
def enter (m : Stm) (id : Str) (c : Config) : Config :=
  let c := { c with state := id }
  match m.states.find? (fun s => s.id = id) with
  | none => c
  | some s => settle s (setVerdicts s.verdict c)

/-- The ID of the initial state.  (Without states the templates fail to execute, stm.cpp.tmpl:33.) -/
def initial (m : Stm) : Str :=
  match m.initialState with
  | .ok id => id
  | .error _ => []

/-- The constructor, stm.cpp.tmpl:45-55, and the initial values of the fields, stm.cpp.tmpl:32-33, verdict.cpp.tmpl:15-17 and
prelude/rtcg.h:70. -/
def construct (m : Stm) : Config :=
  let c : Config := ⟨initial m, .waitStart, (GoSet.values m.tests).map (fun t => (t, Outcome.unset)), []⟩
  if (TransitionContext.make m).firstStateHasIn then { c with status := .waitStart }
  else enter m (initial m) c

/-- StateMachine::timeoutCallback, stm.cpp.tmpl:91-99 -/
def timeoutCallback (c : Config) : Config :=
  if !c.status.isRunning then c else finish .timeout c

/-- StateMachine::initialDelayCallback, stm.cpp.tmpl:101-112; not there unless the first state has an input -/
def initialDelayCallback (m : Stm) (c : Config) : Config :=
  if (TransitionContext.make m).firstStateHasIn then
    if c.status ≠ .waitStart then c else enter m (initial m) c
  else c

/-- StateMachine::inputAcceptedCallback, stm.cpp.tmpl:114-122 and in_callback.cpp.tmpl:8-20; not there unless the machine has an
input.  (A state with no transitions in the merged map would make the template fail, in_callback.cpp.tmpl:13.) -/
def inputAcceptedCallback (m : Stm) (c : Config) : Config :=
  if (TransitionContext.make m).hasIn then
    match GoMap.get? (TransitionContext.make m).inMerged c.state with
    | some (t :: _) => enter m t.next c
    | some [] => c
    | none => finish .bug c
  else c

/-- The output callback of channel `ch`, stm.cpp.tmpl:124-132 and out_callback.cpp.tmpl:10-35; not there unless the machine uses
the channel as an output. -/
def outputCallback (m : Stm) (ch : Channel) (v : Value) (c : Config) : Config :=
  match (TransitionContext.make m).out.find? (fun a => a.channel = ch) with
  | none => c
  | some a =>
    match GoMap.get? a.states c.state with
    | none => finish .offScript c
    | some ts =>
      match ts.find? (fun t => t.value = v) with
      | some t => enter m t.next c
      | none => finish .offScript c

/-- One callback. (The methods of gen/cpp/embed/templates/base/stm.cpp.tmpl:91-132.) -/
def step (m : Stm) (c : Config) : Callback → Config
  | .timeout => timeoutCallback c
  | .start => initialDelayCallback m c
  | .accepted => inputAcceptedCallback m c
  | .output ch v => outputCallback m ch v c

/-- A callback while the test runs; afterwards it is not delivered any more (`ros::shutdown` in ros/main.cpp.tmpl:114-117, the
loop condition in animate/main_body.cpp.tmpl:5). -/
def deliver (m : Stm) (c : Config) (cb : Callback) : Config := if c.status.isRunning then step m c cb else c

/-- A run: callbacks in order, until the test ends. (The loop of gen/cpp/embed/templates/base/entry.cpp.tmpl:2-21.) -/
def run (m : Stm) (cbs : List Callback) : Config := cbs.foldl (deliver m) (construct m)

/-- A run in which callbacks still come after the test has ended. (The methods of gen/cpp/embed/templates/base/stm.cpp.tmpl:91-132 stay callable.) -/
def lateRun (m : Stm) (cbs : List Callback) : Config := cbs.foldl (step m) (construct m)

/-- The exit code of the test program, entry.cpp.tmpl:15-21 -/
def exitCode (c : Config) : Int := c.status.exitCode

/-- One iteration of the main loop of the animate variant, animate/main_body.cpp.tmpl:31-53: a word typed by the user and, for an
output, a value. -/
def animateStep (m : Stm) (c : Config) (choice : Str) (v : Value) : Config :=
  if choice = c!"timeout" then step m c .timeout
  else if (TransitionContext.make m).firstStateHasIn ∧ choice = c!"ready" ∧ c.status = .waitStart then step m c .start
  else if (TransitionContext.make m).hasIn ∧ choice = c!"accept" ∧ c.status = .waitIn then step m c .accepted
  else
    match (TransitionContext.make m).out.find? (fun a => a.channel.name = choice) with
    | some a => step m c (.output a.channel v)
    | none => c

/-- The main loop of the animate variant, animate/main_body.cpp.tmpl:5-54, on the words typed until the test ends or the user
stops typing (the loop would wait for more). -/
def animate (m : Stm) (words : List (Str × Value)) : Config :=
  words.foldl (fun c w => if c.status.isRunning then animateStep m c w.1 w.2 else c) (construct m)

end Harness

end Rtcg
