import Verif.Spec.CppHarness
import Verif.Spec.Harness

/-
When the test of a forbidden trace can be a C++ program, and what it is then driven by, in terms of the trace.
-/

namespace Rtcg

namespace Spec

namespace Cpp

open Templates Rtcg.Cpp Harness

/-- The names in a trace, and of its test, can be names in C++, and do not clash -/
structure TraceNames (U : Unicode) (v : Variant) (f : Forbidden) (name : Str) : Prop where
  /-- channels are called by words, and there are values that can be put in quotes -/
  words : ∀ e ∈ eventsOf f, WordName e.channel.name ∧ GoodValue e.value
  /-- the test is called by a name that is not a keyword or another member of class Verdict -/
  test : Ident name ∧ name ≠ c!"Verdict" ∧ name ≠ c!"dump"
  /-- no output has the callback of something else -/
  outputs : ∀ e ∈ eventsOf f, e.channel.kind ≠ kIn → e.channel.name ∉ [c!"timeout", c!"initialDelay", c!"inputAccepted"]
  /-- different outputs have different names -/
  distinct : ∀ e ∈ eventsOf f, ∀ e' ∈ eventsOf f, e.channel.kind ≠ kIn → e'.channel.kind ≠ kIn → e.channel.name = e'.channel.name →
    e.channel = e'.channel
  /-- in ROS, different channels have different topics, and no output has the topic for accepted inputs -/
  topics : v = .ros → ∀ e ∈ eventsOf f, (∀ e' ∈ eventsOf f, (e.channel.kind = kIn ↔ e'.channel.kind = kIn) →
    topicName U e.channel = topicName U e'.channel → e.channel = e'.channel) ∧ (e.channel.kind ≠ kIn → topicName U e.channel ≠ c!"input_accepted")
  /-- no conversion is hidden by a callback or a publisher -/
  convert : ∀ e ∈ eventsOf f, ∀ e' ∈ eventsOf f, ∀ g ∈ [convertTo U e.channel.name, convertFrom U e.channel.name],
    g ≠ callbackName e'.channel.name ∧ (v = .ros → g ≠ publisherName U e'.channel ++ c!"_")

/-- The libraries declare what the program of a trace needs: streams, the conversions of its channels, and (for ROS) the parts of ROS -/
structure TraceLib (L : Lib) (U : Unicode) (v : Variant) (f : Forbidden) : Prop where
  std : ∀ x ∈ [c!"cerr", c!"cout", c!"endl"], L.known [c!"std", x] = true
  convert : ∀ e ∈ eventsOf f, L.takes [convertTo U e.channel.name] 1 = true ∧ L.takes [convertFrom U e.channel.name] 1 = true
  ros : v = .ros → (∀ x ∈ [c!"NodeHandle", c!"Publisher"], L.known [c!"ros", x] = true) ∧ (∀ f ∈ rosFunctions, L.takes f.1 f.2 = true) ∧
    ∀ e ∈ eventsOf f, L.takes [c!".advertise", channelValueType U e.channel.name] 3 = true ∧
      ∀ args, ∃ h, L.val [c!".advertise", channelValueType U e.channel.name] args = .lib h

/-- A callback that ROS can call in the test of a trace: for an output, one of the trace, with a value like those of the trace -/
def TraceCallback (f : Forbidden) : Callback → Prop
  | .timeout => True
  | .start => StartsWithInput f
  | .accepted => ∃ e ∈ eventsOf f, e.channel.kind = kIn
  | .output c x => (∃ e ∈ eventsOf f, e.channel = c) ∧ c.kind ≠ kIn ∧ x ≠ .none ∧ ∀ e ∈ eventsOf f, e.channel = c → SameKind e.value x

/-- After some callbacks, the test of a trace goes on: what it saw is a part of the trace, but not the whole trace -/
def Ongoing (f : Forbidden) (done : List Callback) : Prop := done.filter (counts f) <+: script f ∧ done.filter (counts f) ≠ script f

instance (f : Forbidden) (done : List Callback) : Decidable (Ongoing f done) := by unfold Ongoing; infer_instance

/-- It waits for its start -/
def NotStarted (f : Forbidden) (done : List Callback) : Prop :=
  StartsWithInput f ∧ ¬ Started f done ∧ progress (script f) (done.filter (counts f)) = 0

instance (f : Forbidden) (done : List Callback) : Decidable (NotStarted f done) := by unfold NotStarted; infer_instance

/-- It waits for an input to be accepted: it has started, and the next event of the trace is an input -/
def AwaitsInput (f : Forbidden) (done : List Callback) : Prop :=
  ¬ NotStarted f done ∧ ∃ e ∈ (eventsOf f)[progress (script f) (done.filter (counts f))]?, e.channel.kind = kIn

instance (f : Forbidden) (done : List Callback) : Decidable (AwaitsInput f done) := by
  unfold AwaitsInput
  cases (eventsOf f)[progress (script f) (done.filter (counts f))]? with
  | none => exact isFalse (by rintro ⟨_, e, h, _⟩; cases h)
  | some e => exact decidable_of_iff (¬ NotStarted f done ∧ e.channel.kind = kIn) (by simp)

/-- What a typed word means to the test of a trace, after some callbacks: a callback, or nothing -/
def meaning (f : Forbidden) (done : List Callback) (w : Str × Value) : Option Callback :=
  if w.1 = c!"timeout" then some .timeout
  else if w.1 = c!"ready" ∧ NotStarted f done then some .start
  else if w.1 = c!"accept" ∧ AwaitsInput f done then some .accepted
  else ((eventsOf f).find? (fun e => e.channel.kind ≠ kIn ∧ e.channel.name = w.1)).map (fun e => .output e.channel w.2)

/-- What typed words mean, one after the other -/
def meanings (f : Forbidden) : List Callback → List (Str × Value) → List Callback
  | done, [] => done
  | done, w :: ws => meanings f (done ++ (meaning f done w).toList) ws

/-- What is typed until the test ends: the words, and after the name of an output a value -/
def typing (f : Forbidden) : List Callback → List (Str × Value) → List Str
  | _, [] => []
  | done, w :: ws =>
    if Ongoing f done then
      (match meaning f done w with
        | some (.output _ x) => [w.1, x.stringValue]
        | _ => [w.1]) ++ typing f (done ++ (meaning f done w).toList) ws
    else []

end Cpp

end Spec

end Rtcg
