import Verif.Model.Lang
import Verif.Spec.Text

/-
Specification vocabulary for the texts of enumerations, channels, values and events, and the order on types.
-/

namespace Rtcg.Spec

open Rtcg

/-- What the text form of an enumeration must satisfy: `members` are the declared members with their texts. -/
structure EnumText {α : Type} (print : α → Str) (parse : Str → Res α) (code : α → UInt8)
    (typeName : Str) (members : List (α × Str)) : Prop where
  /-- a declared member prints as its text -/
  prints : ∀ a name, (a, name) ∈ members → print a = name
  /-- the printed text of a member parses back -/
  roundTrip : ∀ a name, (a, name) ∈ members → parse (print a) = .ok a
  /-- a text parses to `a` exactly when it is `a`'s text in some mixture of cases -/
  accepts : ∀ s a, parse s = .ok a ↔ ∃ name, (a, name) ∈ members ∧ SameIgnoringCase s name
  /-- any other text is rejected with the enumeration's error -/
  rejects : ∀ s, (¬ ∃ a name, (a, name) ∈ members ∧ SameIgnoringCase s name) → parse s = .error (.err .invalidEnum)
  /-- a value that is not a declared member prints as `Type(number)` … -/
  undeclared : ∀ a, (¬ ∃ name, (a, name) ∈ members) → print a = typeName ++ ['('] ++ decNat (code a).toNat ++ [')']
  /-- … which does not parse -/
  undeclared_rejected : ∀ a, (¬ ∃ name, (a, name) ∈ members) → parse (print a) = .error (.err .invalidEnum)

/-- The declared channel kinds and their texts (documented in README and kind.go). -/
def kindMembers : List (Kind × Str) := [(⟨0⟩, "in".toList), (⟨1⟩, "out".toList), (⟨2⟩, "call".toList)]
def outcomeMembers : List (Outcome × Str) :=
  [(⟨0⟩, "unset".toList), (⟨1⟩, "inc".toList), (⟨2⟩, "fail".toList), (⟨3⟩, "pass".toList)]
def variantMembers : List (Variant × Str) := [(⟨0⟩, "animate".toList), (⟨1⟩, "ros".toList)]
def rsKindMembers : List (RsKind × Str) :=
  [(⟨0⟩, "empty".toList), (⟨1⟩, "arithmos".toList), (⟨2⟩, "enum".toList)]
def domainMembers : List (Domain × Str) :=
  [(⟨0⟩, "unknown".toList), (⟨1⟩, "nat".toList), (⟨2⟩, "int".toList), (⟨3⟩, "real".toList)]

/-- A text naming a channel kind, ignoring case. -/
def NamesKind (s : Str) (k : Kind) : Prop := ∃ name, (k, name) ∈ kindMembers ∧ SameIgnoringCase s name

/-- A channel name that survives the text format. -/
def GoodChannelName (n : Str) : Prop := n ≠ [] ∧ NoOuterSpace n ∧ '.' ∉ n

/-- A channel that survives the text format. -/
def GoodChannel (c : Channel) : Prop := GoodChannelName c.name ∧ (c.kind = .in_ ∨ c.kind = .out ∨ c.kind = .call)

/-- A (present) value that survives the text format. -/
def GoodValue : Value → Prop
  | .none => False
  | .int _ => True
  | .enum s => NoOuterSpace s ∧ ¬ ReadsAsInt64 s

/-- An event that survives the text format. -/
def GoodEvent (e : Event) : Prop := GoodChannel e.channel ∧ (e.value = .none ∨ GoodValue e.value)

/-- The channel read from a text, declaratively: `name . kind [ . rest ]`. -/
def ReadsAsChannel (text : Str) (c : Channel) (rest : Option Str) : Prop :=
  ∃ f0 f1, '.' ∉ f0 ∧ '.' ∉ f1 ∧ Stripped f0 c.name ∧ (∃ k, Stripped f1 k ∧ NamesKind k c.kind) ∧
    (match rest with
     | none => text = f0 ++ '.' :: f1
     | some r => text = f0 ++ '.' :: f1 ++ '.' :: r)

/-! ### types -/

/-- The five printable types with their texts. -/
def typeTexts : List (RsType × Str) :=
  [(⟨⟨0⟩, ⟨0⟩⟩, "()".toList), (⟨⟨2⟩, ⟨0⟩⟩, "enum".toList), (⟨⟨1⟩, ⟨1⟩⟩, "nat".toList),
   (⟨⟨1⟩, ⟨2⟩⟩, "int".toList), (⟨⟨1⟩, ⟨3⟩⟩, "real".toList)]

/-- The subtype order: `nat < int < real` among arithmetic types, otherwise equality.
(Written on the constructors: kinds must agree, and arithmetic domains are ordered by their codes.) -/
def SubType (a b : RsType) : Prop :=
  a = b ∨ (a.kind = ⟨1⟩ ∧ b.kind = ⟨1⟩ ∧ a.domain.val ≤ b.domain.val)

/-- The same with absent types, which are below everything. -/
def SubType? : Option RsType → Option RsType → Prop
  | none, _ => True
  | some _, none => False
  | some a, some b => SubType a b

/-- `c` is the least upper bound of `a` and `b`. -/
def IsLub (a b c : Option RsType) : Prop :=
  SubType? a c ∧ SubType? b c ∧ ∀ d, SubType? a d → SubType? b d → SubType? c d

/-- The types the code constructs: only arithmetic types have a domain. -/
def GoodType (t : RsType) : Prop := t.kind ≠ ⟨1⟩ → t.domain = ⟨0⟩

end Rtcg.Spec
