import Verif.Model.Harness
import Verif.Spec.Stm

/-
Specification vocabulary for running generated tests.
-/

namespace Rtcg.Spec

open Rtcg Harness

/-- How a test gets to see an event: an input by its acknowledgement, any other event by its value. -/
def observed (e : Event) : Callback := if e.channel.kind = kIn then .accepted else .output e.channel e.value

/-- What the test of a forbidden trace waits to see, in order: the prefix, then the forbidden event. -/
def script (f : Forbidden) : List Callback := (eventsOf f).map observed

/-- The callbacks that count in a test using the events `es`: not the start delay, not outputs on channels the test does not
use, not acknowledgements when the test has no input (there is no such callback then). -/
def sees (es : List Event) : Callback → Bool
  | .timeout => true
  | .start => false
  | .accepted => es.any fun e => e.channel.kind = kIn
  | .output c _ => es.any fun e => e.channel = c ∧ c.kind ≠ kIn

/-- The callbacks that count in the test of a trace. -/
abbrev counts (f : Forbidden) : Callback → Bool := sees (eventsOf f)

/-- How far `seen` follows `script`: the length of their longest common prefix. -/
def progress : List Callback → List Callback → Nat
  | a :: script, b :: seen => if a = b then progress script seen + 1 else 0
  | _, _ => 0

/-- `cb` is the first of `seen` that is not as `script` has it (and before `script` is over). -/
def Deviates (script seen : List Callback) (cb : Callback) : Prop :=
  ∃ pre rest, seen = pre ++ cb :: rest ∧ pre <+: script ∧ pre.length < script.length ∧ ¬ pre ++ [cb] <+: script

/-- The inputs among some events. -/
def inputsOf (es : List Event) : List (Channel × Value) :=
  (es.filter fun e => e.channel.kind = kIn).map fun e => (e.channel, e.value)

/-- The trace begins with an input. -/
def StartsWithInput (f : Forbidden) : Prop := ∃ e, (eventsOf f).head? = some e ∧ e.channel.kind = kIn

instance (f : Forbidden) : Decidable (StartsWithInput f) := by
  unfold StartsWithInput
  cases h : (eventsOf f).head? with
  | none => exact isFalse (by simp)
  | some e => exact decidable_of_iff (e.channel.kind = kIn) (by simp)

/-- The start delay is over before anything else that counts in a test using the events `es`. -/
def StartedIn (es : List Event) (cbs : List Callback) : Prop := .start ∈ cbs.takeWhile (fun cb => !sees es cb)

instance (es : List Event) (cbs : List Callback) : Decidable (StartedIn es cbs) := by unfold StartedIn; infer_instance

/-- The start delay is over before anything else that counts in the test of a trace. -/
abbrev Started (f : Forbidden) (cbs : List Callback) : Prop := StartedIn (eventsOf f) cbs

/-- The order in which verdicts may follow each other. -/
def rank (o : Outcome) : Nat := if o = oUnset then 0 else if o = oInc then 1 else if o = oPass then 2 else 3

/-- `m` is the machine built for the forbidden trace `f` as the test called `name`. -/
def BuiltFor (f : Forbidden) (name : Str) (m : Stm) : Prop :=
  ∃ b t b' t', Validate.full (some (f.expand name)) = some (.ok t) ∧ Builder.build b t = some (.ok (b', m, t'))

/-- `m` is the machine built from the tree `root`, in which no node has an ID yet. -/
def BuiltFrom (root : Node) (m : Stm) : Prop :=
  NoIds root ∧ ∃ b t b' t', Validate.full (some root) = some (.ok t) ∧ Builder.build b t = some (.ok (b', m, t'))

/-! ### test trees -/

/-- All events of a tree. -/
def treeEvents : Node → List Event
  | ⟨_, _, _, e, next⟩ => e.toList ++ go next
where
  go : List Node → List Event
  | [] => []
  | n :: ns => treeEvents n ++ go ns

/-- The events along a path down a tree. -/
def eventsTo (n : Node) : Path → List Event
  | [] => []
  | i :: p =>
    match n.next[i]? with
    | none => []
    | some c => c.event.toList ++ eventsTo c p

/-- What a test sees along a path. -/
def seenTo (n : Node) (p : Path) : List Callback := (eventsTo n p).map observed

/-- Having got to the node, some test has failed: the last continuation tagged with that test is a failing one. -/
def Fails (n : Node) : Prop := ∃ test, lastOutcome n test = some oFail

/-- The verdict a test has got on the way down a path: that of the deepest node on it with a continuation tagged with the test. -/
def verdictTo (n : Node) (test : Str) : Path → Option Outcome
  | [] => lastOutcome n test
  | i :: p =>
    match n.next[i]? with
    | none => lastOutcome n test
    | some c => (verdictTo c test p).or (lastOutcome n test)

theorem fails_iff_next (n : Node) : (∃ c ∈ n.next, ∃ t ∈ c.tests, lastOutcome n t = some oFail) ↔ Fails n := by
  constructor
  · rintro ⟨_, _, t, _, h⟩; exact ⟨t, h⟩
  · rintro ⟨t, h⟩
    have h' := h
    unfold lastOutcome at h
    cases hl : (n.next.filter (fun c => t ∈ c.tests)).getLast? with
    | none => rw [hl] at h; cases h
    | some c =>
      have := List.mem_filter.1 (List.mem_of_getLast? hl)
      exact ⟨c, this.1, t, by simpa using this.2, h'⟩

instance (n : Node) : Decidable (Fails n) := decidable_of_iff _ (fails_iff_next n)

/-- The inputs a node offers to the system under test; none when a test has failed there (the test program ends). -/
def offer (n : Node) : List (Channel × Value) :=
  if Fails n then [] else inputsOf ((n.next.filter fun c => c.outcome ≠ oFail).flatMap fun c => c.event.toList)

/-- The inputs offered on the way down a path, by all its nodes. -/
def offersTo (n : Node) : Path → List (Channel × Value)
  | [] => offer n
  | i :: p =>
    match n.next[i]? with
    | none => offer n
    | some c => offer n ++ offersTo c p

/-- Some non-failing continuation of the node is seen as `cb`. -/
def Continues (n : Node) (cb : Callback) : Prop := ∃ k ∈ n.next, k.outcome ≠ oFail ∧ ∃ e, k.event = some e ∧ observed e = cb

/-- No two non-failing continuations of a node are seen alike: at most one input, and every output at most once. -/
def Deterministic (root : Node) : Prop :=
  ∀ p n, nodeAt root p = some n → ∀ (i j : Nat) (a b : Node) (e e' : Event), n.next[i]? = some a → n.next[j]? = some b → a.outcome ≠ oFail → b.outcome ≠ oFail →
    a.event = some e → b.event = some e' → observed e = observed e' → i = j

end Rtcg.Spec
