import Verif.Model.Stm
import Verif.Spec.Tree

/-
Specification vocabulary for state machines.
-/

namespace Rtcg.Spec

open Rtcg

/-! ### grouping -/

/-- The distinct channels of a list, in order of first use. -/
def firstUses : List Channel → List Channel
  | [] => []
  | c :: cs => c :: (firstUses cs).filter (fun d => d ≠ c)

/-- `sets` is the grouping by channel of the (channel, transition) pairs `adds`. -/
def Grouped (adds : List (Channel × Transition)) (sets : List TSet) : Prop :=
  sets.map (·.channel) = firstUses (adds.map (·.1)) ∧
  ∀ s ∈ sets, s.transitions = (adds.filter (fun a => a.1 = s.channel)).map (·.2)

/-! ### trees and machines -/

/-- The two trees have the same nodes in the same places with the same content, IDs aside. -/
def SameButIds (a b : Node) : Prop :=
  ∀ p, (nodeAt a p).map (fun n => (n.tests, n.outcome, n.event, n.next.length)) =
    (nodeAt b p).map (fun n => (n.tests, n.outcome, n.event, n.next.length))

/-- No node of the tree has an ID yet. -/
def NoIds (r : Node) : Prop := ∀ p n, nodeAt r p = some n → n.id = []

/-- `l` lists the non-failing nodes of the tree, each once, the root first. -/
def ListsNonFailing (root : Node) (l : List (Path × Node)) : Prop :=
  (∀ p n, (p, n) ∈ l ↔ nodeAt root p = some n ∧ n.outcome ≠ oFail) ∧ (l.map (·.1)).Nodup ∧ l.head? = some ([], root)

/-- The non-failing continuations of a node as (channel, transition) pairs, in branch order. -/
def branches (n : Node) : List (Channel × Transition) :=
  n.next.filterMap fun c =>
    if c.outcome = oFail then none else c.event.map fun e => (e.channel, { value := e.value, next := c.id })

/-- Outcome of the last continuation tagged with the test. -/
def lastOutcome (n : Node) (test : Str) : Option Outcome :=
  ((n.next.filter (fun c => test ∈ c.tests)).getLast?).map (·.outcome)

/-- Some non-failing node of the tree carries a value of type `ty` on the channel called `name`. -/
def Carries (root : Node) (name : Str) (ty : RsType) : Prop :=
  ∃ p n e, nodeAt root p = some n ∧ n.outcome ≠ oFail ∧ n.event = some e ∧ e.channel.name = name ∧ ty = e.value.type

/-- `t` is the least type above all types in `S`. -/
def LeastUpper (S : RsType → Prop) (t : RsType) : Prop :=
  (∀ x, S x → SubType x t) ∧ ∀ u, (∀ x, S x → SubType x u) → SubType t u

/-- Two types in `S` are of different kinds. -/
def Conflict (S : RsType → Prop) : Prop := ∃ x y, S x ∧ S y ∧ x.kind ≠ y.kind

/-- `types` is the map of least upper bounds of the types used, per channel name. -/
def TypesAre (types : TypeMap) (uses : Str → RsType → Prop) : Prop :=
  ∀ name, (types.get? name = none ↔ ¬ ∃ ty, uses name ty) ∧
    ∀ x, types.get? name = some x → ∃ ty, x = some ty ∧ LeastUpper (uses name) ty

/-- All transition targets of a machine, state by state. -/
def targets (m : Stm) : List Str :=
  m.states.flatMap fun s => s.transitionSets.flatMap fun ts => ts.transitions.map (·.next)

/-- The transitions on channel `c` of the states with ID `sid`, in order. -/
def transitionsOn (m : Stm) (c : Channel) (sid : Str) : List Transition :=
  (m.states.filter (fun s => s.id = sid)).flatMap fun s =>
    (s.transitionSets.filter (fun ts => ts.channel = c)).flatMap (·.transitions)

end Rtcg.Spec

namespace Rtcg.Spec

open Rtcg

/-- Every test of the suite came out of validation. -/
def Validated (ts : GoMap Str Validate.Test) : Prop := ∀ nt ∈ ts, Validate.full (some nt.2.root) = some (.ok nt.2)

/-- Some test of the suite carries a value of type `ty` on the channel called `name`. -/
def SuiteCarries (ts : GoMap Str Validate.Test) (name : Str) (ty : RsType) : Prop := ∃ nt ∈ ts, Carries nt.2.root name ty

/-- The kind of input channels. -/
abbrev kIn : Kind := ⟨0⟩

/-- All input transitions of the states with ID `sid`, in the order of the machine. -/
def inputsAt (m : Stm) (sid : Str) : List Transition :=
  (m.states.filter (fun s => s.id = sid)).flatMap fun s =>
    (s.transitionSets.filter (fun ts => ts.channel.kind = kIn)).flatMap (·.transitions)

end Rtcg.Spec

namespace Rtcg.Spec

open Rtcg

/-! ### the machine of a forbidden trace -/

/-- State names along a single branch: initial, step0, step1, … -/
def stateName : Nat → Str
  | 0 => "initial".toList
  | k + 1 => "step".toList ++ decNat k

/-- All events of a forbidden trace, the forbidden one last. -/
def eventsOf (f : Forbidden) : List Event := f.pre ++ [f.forbid]

/-- The verdict after `k` of the events of a trace with a prefix of length `len`: inconclusive while part of the prefix is
to come, pass when only the forbidden event is left, fail after it. -/
def verdictAt (len k : Nat) : Outcome := if k < len then oInc else if k = len then oPass else oFail

/-- The state reached after `k` events: one transition, on the next event, to the next state. -/
def linearState (f : Forbidden) (name : Str) (k : Nat) : State where
  id := stateName k
  transitionSets :=
    match (eventsOf f)[k]? with
    | none => []
    | some e => [{ channel := e.channel, transitions := [{ value := e.value, next := stateName (k + 1) }] }]
  verdict := [(name, verdictAt f.pre.length k)]

/-- The states of the test called `name` for a forbidden trace. -/
def linearStates (f : Forbidden) (name : Str) : List State :=
  (List.range (f.pre.length + 2)).map (linearState f name)

/-- An event of the trace carries a value of type `ty` on the channel called `chan`. -/
def TraceCarries (f : Forbidden) (chan : Str) (ty : RsType) : Prop :=
  ∃ e ∈ eventsOf f, e.channel.name = chan ∧ ty = e.value.type

end Rtcg.Spec
