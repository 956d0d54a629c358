import Verif.Spec.Tree

/-
What an ill-formed test is refused for: for each kind of node, the things that may be wrong with it in order of
precedence, with the error that says so (the documented sentinels of validate/errors.go).
-/

namespace Rtcg.Spec

open Rtcg

/-- Complaints in order of precedence: what must be the case for each, and the error given. -/
abbrev Complaints := List (Prop × Err)

/-- `e` is given: the first complaint that applies gives it. -/
inductive Given : Complaints → Err → Prop
  | here {p : Prop} {e : Err} {l : Complaints} (h : p) : Given ((p, e) :: l) e
  | later {p : Prop} {e e' : Err} {l : Complaints} (h : ¬ p) (hl : Given l e) : Given ((p, e') :: l) e

/-- No complaint applies. -/
def Quiet (l : Complaints) : Prop := ∀ x ∈ l, ¬ x.1

/-- What may be wrong with a root. -/
def rootComplaints (n : Node) : Complaints :=
  [(n.event ≠ none, .rootHasEvent),
   (n.outcome ≠ oUnset, .rootHasOutcome),
   (n.tests = [], .noTests)]

/-- What may be wrong with a node below the root. -/
def nodeComplaints (n : Node) : Complaints :=
  [(n.tests = [], .noTests),
   (n.outcome = oUnset, .noOutcome),
   (n.outcome ∉ [oInc, oFail, oPass], .badOutcome),
   (n.outcome = oFail ∧ n.event ≠ none, .failHasEvent),
   (n.outcome = oFail ∧ n.next ≠ [], .failHasNextNodes),
   (n.outcome = oPass ∧ n.next.length ≠ 1, .needOneNode n.next.length),
   (n.outcome ∈ [oPass, oInc] ∧ n.event = none, .noEvent),
   (n.outcome = oInc ∧ n.next = [], .noNextNodes)]

/-- What may be wrong with the node at a pointer. -/
def complaintsAt (p : Path) (n : Node) : Complaints := if p = [] then rootComplaints n else nodeComplaints n

/-- `e` is what the first node of the tree, in pre-order, that has something wrong with it is refused for. -/
def FirstComplaint (r : Node) (e : Err) : Prop :=
  ∃ p n, nodeAt r p = some n ∧ Given (complaintsAt p n) e ∧
    ∀ q m, nodeAt r q = some m → Before q p → Quiet (complaintsAt q m)

/-- The same for a tree that has to be a single branch ending in a failing node: along the leftmost branch, every node
but a failing one must also have exactly one child. -/
def branchComplaints (p : Path) (n : Node) : Complaints :=
  complaintsAt p n ++ [(n.outcome ≠ oFail ∧ n.next.length ≠ 1, .needOneNode n.next.length)]

/-- `e` is what the first node along the leftmost branch that has something wrong with it is refused for. -/
def FirstBranchComplaint (r : Node) (e : Err) : Prop :=
  ∃ k n, nodeAt r (List.replicate k 0) = some n ∧ Given (branchComplaints (List.replicate k 0) n) e ∧
    ∀ j < k, ∀ m, nodeAt r (List.replicate j 0) = some m → Quiet (branchComplaints (List.replicate j 0) m)

end Rtcg.Spec
