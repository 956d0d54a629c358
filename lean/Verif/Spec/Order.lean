import Verif.Model.Json
import Verif.Spec.Tree
import Mathlib.Data.List.Forall2

/-
When two JSON values are the same apart from the order of certain lists (C113).
-/

namespace Rtcg.Spec

/-- A step into a JSON value: into the field of that name, or into every field. -/
inductive Step where
  | key (name : Str)
  | each

/-- Does the step go into that field? -/
def Step.into (name : Str) : Step → Prop
  | .key k => name = k
  | .each => True

/-- The same JSON value, but at the end of the path only the same up to `R`. -/
def SameBut (R : Json → Json → Prop) : List Step → Json → Json → Prop
  | [], a, b => R a b
  | s :: p, a, b => ∃ fs fs', a = .obj fs ∧ b = .obj fs' ∧
      List.Forall₂ (fun x y => x.1 = y.1 ∧ ((s.into x.1 ∧ SameBut R p x.2 y.2) ∨ (¬ s.into x.1 ∧ x.2 = y.2))) fs fs'

/-- The same array in another order -/
def Rearranged (a b : Json) : Prop := ∃ xs ys, a = .arr xs ∧ b = .arr ys ∧ xs.Perm ys

/-- The same suite of state machines as JSON, but for the order in which each machine lists its tests -/
def SameButOrder (a b : Json) : Prop := SameBut Rearranged [.key c!"tests", .each, .key c!"tests"] a b

/-- Every tree of the suite is that of a single test: its nodes below the root bear no more than one name. -/
def OneTest (s : Validate.Suite) : Prop := ∀ name root, (name, some root) ∈ s → ∀ t u,
  (∃ p n, p ≠ [] ∧ nodeAt root p = some n ∧ t ∈ n.tests) → (∃ p n, p ≠ [] ∧ nodeAt root p = some n ∧ u ∈ n.tests) → t = u

end Rtcg.Spec
