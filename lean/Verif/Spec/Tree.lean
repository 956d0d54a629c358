import Verif.Model.Trace
import Verif.Spec.Lang

/-
Specification vocabulary for test trees.
-/

namespace Rtcg.Spec

open Rtcg

/-- The node reached from `n` by following child indices. -/
def nodeAt (n : Node) : Path → Option Node
  | [] => some n
  | i :: p =>
    match n.next[i]? with
    | none => none
    | some c => nodeAt c p

/-- Strict pre-order of pointers: a parent before its descendants, left siblings' subtrees before right ones'. -/
inductive Before : Path → Path → Prop
  | parent {i : Nat} {p : Path} : Before [] (i :: p)
  | sibling {i j : Nat} {p q : Path} (h : i < j) : Before (i :: p) (j :: q)
  | inside {i : Nat} {p q : Path} (h : Before p q) : Before (i :: p) (i :: q)

/-- `l` lists every node of the tree with its pointer, once, in pre-order. -/
def PreorderOf (root : Node) (l : List (Path × Node)) : Prop :=
  (∀ p n, (p, n) ∈ l ↔ nodeAt root p = some n) ∧ l.Pairwise (fun a b => Before a.1 b.1)

/-- Outcome codes by their documented names. -/
abbrev oUnset : Outcome := ⟨0⟩
abbrev oInc : Outcome := ⟨1⟩
abbrev oFail : Outcome := ⟨2⟩
abbrev oPass : Outcome := ⟨3⟩

/-- A proper root. -/
def RootOK (n : Node) : Prop := n.event = none ∧ n.outcome = oUnset ∧ n.tests ≠ []

/-- A proper node below the root. -/
def NodeOK (n : Node) : Prop :=
  n.tests ≠ [] ∧
  ((n.outcome = oFail ∧ n.event = none ∧ n.next = []) ∨
   (n.outcome = oPass ∧ (∃ e, n.event = some e) ∧ (∃ c, n.next = [c])) ∨
   (n.outcome = oInc ∧ (∃ e, n.event = some e) ∧ n.next ≠ []))

/-- A well-formed test. -/
def WellFormed (r : Node) : Prop := RootOK r ∧ ∀ p n, p ≠ [] → nodeAt r p = some n → NodeOK n

/-- The two nodes agree in everything but their tests (and their children, compared separately). -/
def SameButTests (a b : Node) : Prop :=
  a.id = b.id ∧ a.outcome = b.outcome ∧ a.event = b.event ∧ a.next.length = b.next.length

/-! ### forbidden traces -/

/-- The candidate names for a trace called `name`, in order of preference. -/
def candidate (name : Str) (i : Nat) : Str :=
  if name = [] ∨ name = "test".toList then "test".toList ++ decNat i
  else match i with
    | 0 => name
    | i + 1 => name ++ decNat i

/-- `n` is the first candidate for `name` not in `taken`. -/
def FirstFree (name : Str) (taken : List Str) (n : Str) : Prop :=
  ∃ i, n = candidate name i ∧ candidate name i ∉ taken ∧ ∀ j < i, candidate name j ∈ taken

/-- The nodes along the only branch of a forbidden trace's tree, below the root: (outcome, event) pairs. -/
def spineOf (t : Forbidden) : List (Outcome × Option Event) :=
  t.pre.map (fun e => (oInc, some e)) ++ [(oPass, some t.forbid), (oFail, none)]

/-- A single-branch subtree with the given labels along its branch, all nodes tagged `name` and without ID. -/
def branch (name : Str) : List (Outcome × Option Event) → List Node
  | [] => []
  | (o, e) :: rest => [{ id := [], tests := [name], outcome := o, event := e, next := branch name rest }]

/-- The labels along a branch that never forks, if it is one. -/
inductive Spine : Node → List (Outcome × Option Event) → Prop
  | leaf {n : Node} (h : n.next = []) : Spine n [(n.outcome, n.event)]
  | cons {n c : Node} {l : List (Outcome × Option Event)} (h : n.next = [c]) (hc : Spine c l) :
      Spine n ((n.outcome, n.event) :: l)

/-- Equal up to test tags and node IDs. -/
inductive SameShape : Node → Node → Prop
  | mk {i i' : Str} {ts ts' : List Str} {o : Outcome} {e : Option Event} {ns ns' : List Node}
      (h : ns.length = ns'.length) (hs : ∀ k (h1 : k < ns.length) (h2 : k < ns'.length), SameShape ns[k] ns'[k]) :
      SameShape ⟨i, ts, o, e, ns⟩ ⟨i', ts', o, e, ns'⟩

end Rtcg.Spec
