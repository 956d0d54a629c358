import Verif.Model.Gen

/-
Specification vocabulary for generated names and configuration.
-/

namespace Rtcg.Spec

open Rtcg

/-- An ASCII text. -/
def Ascii (s : Str) : Prop := ∀ c ∈ s, c.toNat < 128

/-- Each character with the one before it. -/
def withPrevious (s : Str) : List (Option Char × Char) := List.zip (none :: s.map some) s

/-- What lower_underscoring does to a character, given the one before it. -/
def lowerPiece (U : Unicode) (pc : Option Char × Char) : Str :=
  (if U.isUpper pc.2 ∧ ∃ q, pc.1 = some q ∧ U.isLower q then ['_'] else []) ++ [if pc.2 = '_' then '_' else U.toLower pc.2]


/-- The text with the placeholder replaced: `s` cut at the occurrences of `old`, glued together with `new`. -/
def Replaced (s old new r : Str) : Prop :=
  ∃ segs : List Str, s = List.intercalate old segs ∧ (∀ seg ∈ segs, ¬ old <:+: seg) ∧ r = List.intercalate new segs

/-- The placeholder. -/
abbrev placeholder : Str := c!"${NAME}"

/-- The type configured for a channel: the last entry for its name. -/
def configuredType (c : CppConfig.Config) (name : Str) : Option Str :=
  ((c.channels.filter (fun ch => ch.name = name)).getLast?).map (·.type)

end Rtcg.Spec
