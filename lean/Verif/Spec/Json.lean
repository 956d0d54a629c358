import Verif.Model.Json
import Verif.Spec.Stm
import Mathlib.Data.List.Forall2

/-
Specification vocabulary for saving and loading suites.
-/

namespace Rtcg.Spec

open Rtcg

/-- The same keys, with related values. -/
def SameMap {κ α : Type} [DecidableEq κ] (R : α → α → Prop) (m m' : GoMap κ α) : Prop :=
  ∀ k, Option.Rel R (m.get? k) (m'.get? k)

/-- The property holds of every node of the tree. -/
def Everywhere (P : Node → Prop) (n : Node) : Prop := ∀ p n', nodeAt n p = some n' → P n'

/-- The property holds of every event of the tree. -/
def AllEvents (P : Event → Prop) (root : Node) : Prop := ∀ p n e, nodeAt root p = some n → n.event = some e → P e

/-- The node's event, if any, survives the text format and its outcome is one of the declared four. -/
def SavableNode (n : Node) : Prop :=
  (∀ e, n.event = some e → GoodEvent e) ∧ n.outcome ∈ [oUnset, oInc, oFail, oPass]

/-- The same state, whatever the order of its verdict map. -/
def SameState (s s' : State) : Prop :=
  s.id = s'.id ∧ s.transitionSets = s'.transitionSets ∧ GoMap.Equiv s.verdict s'.verdict

/-- The same machine, whatever the orders of its maps and of its set. -/
def SameStm (m m' : Stm) : Prop :=
  List.Forall₂ SameState m.states m'.states ∧ GoMap.Equiv m.types m'.types ∧
    (GoSet.values m.tests).Perm (GoSet.values m'.tests)

/-- The same suite of machines, whatever the orders of its maps. -/
def SameStmSuite (s s' : StmSuite) : Prop := GoMap.Equiv s.types s'.types ∧ SameMap SameStm s.tests s'.tests

/-- All maps in the machine have distinct keys (true of every Go map). -/
def StmMaps (m : Stm) : Prop := (∀ s ∈ m.states, GoMap.WF s.verdict) ∧ GoMap.WF m.types ∧ GoMap.WF m.tests

/-- A type map all of whose types have a text. -/
def SavableTypes (types : TypeMap) : Prop := ∀ name t, (name, some t) ∈ types → ∃ text, (t, text) ∈ typeTexts

/-- A state that survives being saved: channels and values survive the text format (so no value is absent), and the
outcomes in the verdict are declared ones. -/
def SavableState (s : State) : Prop :=
  (∀ ts ∈ s.transitionSets, GoodChannel ts.channel ∧ ∀ t ∈ ts.transitions, GoodValue t.value) ∧
    ∀ test o, (test, o) ∈ s.verdict → o ∈ [oUnset, oInc, oFail, oPass]

/-- A machine that survives being saved. -/
def SavableStm (m : Stm) : Prop := (∀ s ∈ m.states, SavableState s) ∧ SavableTypes m.types

end Rtcg.Spec
