import Verif.Model.Base

/-
The five enumerations generated by go-enum.  All are `uint8` in Go, so values outside the declared members
exist and are modelled.
-/

namespace Rtcg

/-- The two generated lookup tables of a go-enum type plus its Go type name
(e.g. channel/kind_enum.go:31-35 and 45-52). -/
structure EnumTables where
  /-- Go type name, used when printing undeclared values. -/
  typeName : Str
  /-- `_KindMap`. -/
  nameOf : GoMap UInt8 Str
  /-- `_KindValue`. -/
  valueOf : GoMap Str UInt8

/-- Generated `String()`, e.g. channel/kind_enum.go:38-43. -/
def EnumTables.string (t : EnumTables) (x : UInt8) : Str :=
  match t.nameOf.get? x with
  | some s => s
  | none => t.typeName ++ c!"(" ++ decNat x.toNat ++ c!")"

/-- Generated `ParseX`, e.g. channel/kind_enum.go:55-64: exact lookup, then lookup of the lower-cased text. -/
def EnumTables.parse (t : EnumTables) (name : Str) : Res UInt8 :=
  match t.valueOf.get? name with
  | some x => .ok x
  | none =>
    match t.valueOf.get? (toLower name) with
    | some x => .ok x
    | none => throwErr .invalidEnum

/-! ### channel.Kind (channel/kind.go:14, channel/kind_enum.go) -/

/-- channel.Kind, channel/kind.go:14. -/
structure Kind where
  val : UInt8
  deriving DecidableEq, Repr

/-- channel/kind_enum.go:18 -/
def Kind.in_ : Kind := ⟨0⟩
/-- channel/kind_enum.go:21 -/
def Kind.out : Kind := ⟨1⟩
/-- channel/kind_enum.go:24 -/
def Kind.call : Kind := ⟨2⟩

/-- channel/kind_enum.go:31-35, 45-52 -/
def Kind.tables : EnumTables where
  typeName := c!"Kind"
  nameOf := [(0, c!"in"), (1, c!"out"), (2, c!"call")]
  valueOf := [(c!"in", 0), (c!"out", 1), (c!"call", 2)]

/-- channel/kind_enum.go:38-43, and MarshalText 67-69 -/
def Kind.string (k : Kind) : Str := Kind.tables.string k.val

/-- channel/kind_enum.go:55-64 -/
def Kind.parse (s : Str) : Res Kind := (Kind.tables.parse s).map Kind.mk

/-! ### testlang.Outcome (outcome.go, outcome_enum.go) -/

/-- testlang.Outcome, outcome.go:15. -/
structure Outcome where
  val : UInt8
  deriving DecidableEq, Repr

/-- outcome_enum.go:18 -/
def Outcome.unset : Outcome := ⟨0⟩
/-- outcome_enum.go:21 -/
def Outcome.inc : Outcome := ⟨1⟩
/-- outcome_enum.go:24 -/
def Outcome.fail : Outcome := ⟨2⟩
/-- outcome_enum.go:27 -/
def Outcome.pass : Outcome := ⟨3⟩

/-- outcome_enum.go:34-39, 49-58 -/
def Outcome.tables : EnumTables where
  typeName := c!"Outcome"
  nameOf := [(0, c!"unset"), (1, c!"inc"), (2, c!"fail"), (3, c!"pass")]
  valueOf := [(c!"unset", 0), (c!"inc", 1), (c!"fail", 2), (c!"pass", 3)]

/-- outcome_enum.go:42-47, and MarshalText 73-75 -/
def Outcome.string (k : Outcome) : Str := Outcome.tables.string k.val

/-- outcome_enum.go:61-70 -/
def Outcome.parse (s : Str) : Res Outcome := (Outcome.tables.parse s).map Outcome.mk

/-! ### cpp.Variant (gen/config/cpp/variant.go, variant_enum.go) -/

/-- cpp.Variant, gen/config/cpp/variant.go. -/
structure Variant where
  val : UInt8
  deriving DecidableEq, Repr

/-- variant_enum.go:18 -/
def Variant.animate : Variant := ⟨0⟩
/-- variant_enum.go:21 -/
def Variant.ros : Variant := ⟨1⟩

/-- variant_enum.go:28-31, 41-46 -/
def Variant.tables : EnumTables where
  typeName := c!"Variant"
  nameOf := [(0, c!"animate"), (1, c!"ros")]
  valueOf := [(c!"animate", 0), (c!"ros", 1)]

/-- variant_enum.go:34-39, and MarshalText -/
def Variant.string (k : Variant) : Str := Variant.tables.string k.val

/-- variant_enum.go:49-58 -/
def Variant.parse (s : Str) : Res Variant := (Variant.tables.parse s).map Variant.mk

/-! ### rstype.Kind and rstype.ArithmosDomain -/

/-- rstype.Kind, rstype/kind.go:15. -/
structure RsKind where
  val : UInt8
  deriving DecidableEq, Repr

/-- rstype/kind_enum.go:18 -/
def RsKind.empty : RsKind := ⟨0⟩
/-- rstype/kind_enum.go:21 -/
def RsKind.arithmos : RsKind := ⟨1⟩
/-- rstype/kind_enum.go:24 -/
def RsKind.enum : RsKind := ⟨2⟩

/-- rstype/kind_enum.go:31-35, 45-52 -/
def RsKind.tables : EnumTables where
  typeName := c!"Kind"
  nameOf := [(0, c!"empty"), (1, c!"arithmos"), (2, c!"enum")]
  valueOf := [(c!"empty", 0), (c!"arithmos", 1), (c!"enum", 2)]

/-- rstype/kind_enum.go:38-43 -/
def RsKind.string (k : RsKind) : Str := RsKind.tables.string k.val

/-- rstype/kind_enum.go:55-64 -/
def RsKind.parse (s : Str) : Res RsKind := (RsKind.tables.parse s).map RsKind.mk

/-- rstype.ArithmosDomain, rstype/arithmos.go:15. -/
structure Domain where
  val : UInt8
  deriving DecidableEq, Repr

/-- rstype/arithmos_enum.go:18 -/
def Domain.unknown : Domain := ⟨0⟩
/-- rstype/arithmos_enum.go:21 -/
def Domain.nat : Domain := ⟨1⟩
/-- rstype/arithmos_enum.go:24 -/
def Domain.int : Domain := ⟨2⟩
/-- rstype/arithmos_enum.go:27 -/
def Domain.real : Domain := ⟨3⟩

/-- rstype/arithmos_enum.go:34-39, 49-58 -/
def Domain.tables : EnumTables where
  typeName := c!"ArithmosDomain"
  nameOf := [(0, c!"unknown"), (1, c!"nat"), (2, c!"int"), (3, c!"real")]
  valueOf := [(c!"unknown", 0), (c!"nat", 1), (c!"int", 2), (c!"real", 3)]

/-- rstype/arithmos_enum.go:42-47 -/
def Domain.string (k : Domain) : Str := Domain.tables.string k.val

/-- rstype/arithmos_enum.go:61-70 -/
def Domain.parse (s : Str) : Res Domain := (Domain.tables.parse s).map Domain.mk

end Rtcg
