import Verif.Spec.Harness

/-
Specification vocabulary for running the test of a tree.
-/

namespace Rtcg.Spec

open Rtcg Harness

/-- `p` is the way `seen` leads down the tree: step by step, a non-failing continuation seen as what comes next, and no further
than a node where a test has failed.  It ends where everything is seen, where a test has failed, or where the next thing seen is
not among the continuations. -/
def Followed (root : Node) (seen : List Callback) (p : Path) : Prop :=
  ∃ n, nodeAt root p = some n ∧ n.outcome ≠ oFail ∧ seenTo root p <+: seen ∧
    (∀ q n', q <+: p → q ≠ p → nodeAt root q = some n' → ¬ Fails n') ∧
    (seen = seenTo root p ∨ Fails n ∨ ∃ cb rest, seen = seenTo root p ++ cb :: rest ∧ ¬ Continues n cb)

/-- Some non-failing continuation of the root is an input. -/
def RootInput (root : Node) : Prop := ∃ k ∈ root.next, k.outcome ≠ oFail ∧ ∃ e, k.event = some e ∧ e.channel.kind = kIn

/-- The status of a test that has got to a node, where `after` is what it was told then: FAIL if some test fails there; otherwise it waits as
long as there is nothing more, for an input to be accepted if the node goes on with an input and for an output if not; and what the node does
not go on with ends the test: a timeout as such, an acknowledgement as a BUG, and an output as OFF_SCRIPT. -/
inductive EndsAt (n : Node) : List Callback → Status → Prop where
  | fail (after) : Fails n → EndsAt n after .fail
  | waitIn : ¬ Fails n → RootInput n → EndsAt n [] .waitIn
  | waitOut : ¬ Fails n → ¬ RootInput n → EndsAt n [] .waitOut
  | timeout (rest) : ¬ Fails n → EndsAt n (.timeout :: rest) .timeout
  | bug (rest) : ¬ Fails n → EndsAt n (.accepted :: rest) .bug
  | offScript (c x rest) : ¬ Fails n → EndsAt n (.output c x :: rest) .offScript

/-- The state called `id` of the machine has a transition that is seen as `cb`, to a state called `id'` where no test fails. -/
def Expects (m : Stm) (id : Str) (cb : Callback) (id' : Str) : Prop :=
  (∃ s ∈ m.states, s.id = id ∧ ∃ ts ∈ s.transitionSets, ∃ t ∈ ts.transitions, observed ⟨ts.channel, t.value⟩ = cb ∧ t.next = id') ∧
  ∃ s' ∈ m.states, s'.id = id' ∧ ∀ test, GoMap.get? s'.verdict test ≠ some oFail

end Rtcg.Spec
