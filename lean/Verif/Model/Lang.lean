import Verif.Model.Enums

/-
Channels, values, events and types of the test language (internal/testlang and its subpackages).
-/

namespace Rtcg

/-! ### RoboStar types (testlang/rstype) -/

/-- rstype.RsType, rstype/rstype.go:10-13. -/
structure RsType where
  kind : RsKind
  domain : Domain
  deriving DecidableEq, Repr

namespace RsType

/-- rstype.go:116-121 -/
def empty : RsType := ⟨.empty, .unknown⟩
/-- rstype.go:124-129 -/
def enum : RsType := ⟨.enum, .unknown⟩
/-- rstype.go:132-137 -/
def arithmos (d : Domain) : RsType := ⟨.arithmos, d⟩

/-- rstype.go:16-18 -/
def isEmpty (t : RsType) : Bool := t.kind = .empty
/-- rstype.go:21-23 -/
def isEnum (t : RsType) : Bool := t.kind = .enum
/-- rstype.go:41-47 -/
def isArithmos (t : RsType) (d : Domain) : Bool :=
  if t.kind ≠ .arithmos then false else t.domain = d
/-- rstype.go:26-28 -/
def isNat (t : RsType) : Bool := t.isArithmos .nat
/-- rstype.go:31-33 -/
def isInt (t : RsType) : Bool := t.isArithmos .int
/-- rstype.go:36-38 -/
def isReal (t : RsType) : Bool := t.isArithmos .real

/-- rstype.go:65-81 -/
def tryString (t : RsType) : Option Str :=
  if t.isEmpty then some c!"()"
  else if t.isNat then some c!"nat"
  else if t.isInt then some c!"int"
  else if t.isReal then some c!"real"
  else if t.isEnum then some c!"enum"
  else none

/-- rstype.go:49-55 -/
def marshalText (t : RsType) : Res Str :=
  match t.tryString with
  | some s => .ok s
  | none => throwErr .typeMarshal

/-- rstype.go:83-109.  The receiver's old content is overwritten at lines 84-85, so it is not an argument. -/
def unmarshalText (text : Str) : Res RsType :=
  let typeStr := toLower text
  if typeStr = c!"()" then .ok ⟨.empty, .unknown⟩
  else if typeStr = c!"enum" then .ok ⟨.enum, .unknown⟩
  else if typeStr = c!"nat" then .ok ⟨.arithmos, .nat⟩
  else if typeStr = c!"int" then .ok ⟨.arithmos, .int⟩
  else if typeStr = c!"real" then .ok ⟨.arithmos, .real⟩
  else throwErr (.typeUnmarshal typeStr)

/-- rstype.MaxDomain, rstype/arithmos.go:18-25 -/
def maxDomain (l r : Domain) : Domain := if l.val ≤ r.val then r else l

/-- rstype.Unify, rstype/unify.go:6-21; `none` is a nil pointer. -/
def unify (lhs rhs : Option RsType) : Res (Option RsType) :=
  match lhs, rhs with
  | none, rhs => .ok rhs
  | lhs, none => .ok lhs
  | some l, some r =>
    if l.kind ≠ r.kind then throwErr .unifyDifferentKinds
    else if l.kind = .arithmos then .ok (some (arithmos (maxDomain l.domain r.domain)))
    else .ok (some l)

end RsType

/-! ### Channels (testlang/channel) -/

/-- channel.Channel, channel.go:13-16. -/
structure Channel where
  name : Str
  kind : Kind
  deriving DecidableEq, Repr

namespace Channel

/-- The zero value of the Go struct, testlang/channel/channel.go:13-16. -/
def zero : Channel := ⟨[], .in_⟩

/-- channel.go:29-31 -/
def isIn (c : Channel) : Bool := c.kind = .in_
/-- channel.go:41-43 -/
def isOut (c : Channel) : Bool := c.kind = .out
/-- channel.go:51-53 -/
def isCall (c : Channel) : Bool := c.kind = .call
/-- channel.go:58-60 -/
def isEmpty (c : Channel) : Bool := c.name = []
/-- channel.go:63-65 -/
def equals (c other : Channel) : Bool := c.name = other.name && c.kind = other.kind

/-- channel.EventSepJoin, channel.go:105-107, for two items -/
def eventSepJoin (a b : Str) : Str := a ++ '.' :: b

/-- channel.go:67-80.  `Kind.MarshalText` never fails, so neither does this. -/
def marshalText (c : Channel) : Str :=
  if c.name = [] then [] else eventSepJoin c.name c.kind.string

/-- channel.go:109-129.  The first component is the receiver afterwards: its name is overwritten even when
the kind then fails to parse.  The remainder is `none` for a nil slice. -/
def unmarshalTextWithRemainder (old : Channel) (text : Str) : Channel × Res (Option Str) :=
  match splitN '.' 3 text with
  | [f0, f1] =>
    let c := { old with name := trimSpace f0 }
    match Kind.parse (trimSpace f1) with
    | .error e => (c, .error e)
    | .ok k => ({ c with kind := k }, .ok none)
  | [f0, f1, f2] =>
    let c := { old with name := trimSpace f0 }
    match Kind.parse (trimSpace f1) with
    | .error e => (c, .error e)
    | .ok k => ({ c with kind := k }, .ok (some f2))
  | fields => (old, throwErr (.badFieldCount fields.length))

/-- channel.go:82-86 -/
def unmarshalText (old : Channel) (text : Str) : Channel × Option Fail :=
  match unmarshalTextWithRemainder old text with
  | (c, .ok _) => (c, none)
  | (c, .error e) => (c, some e)

/-- channel.go:88-94 -/
def string (c : Channel) : Str :=
  if c.isEmpty then c!"(empty channel)" else c.name ++ '.' :: c.kind.string

end Channel

/-! ### Values (testlang/value) -/

/-- value.Value with its content, value.go:18-20, int.go:11, enum.go:11.  `none` is a nil content; only the two
content types of the package exist ("invariably one of the xValue types", value.go:17). -/
inductive Value where
  | none
  | int (i : Int64)
  | enum (s : Str)
  deriving DecidableEq, Repr

namespace Value

/-- value.go:38-40 -/
def isEmpty : Value → Bool
  | .none => true
  | _ => false

/-- value.go:43-54; `reflect.DeepEqual` on pointers to the contents compares dynamic type and content -/
def equals (v other : Value) : Bool :=
  if v.isEmpty then other.isEmpty
  else if other.isEmpty then false
  else match v, other with
    | .int i, .int j => i = j
    | .enum s, .enum t => s = t
    | _, _ => false

/-- value.go:56-67, int.go:16-18, enum.go:13-16 -/
def marshalText : Value → Res Str
  | .none => throwErr .marshalAbsentValue
  | .int i => .ok (formatInt i)
  | .enum s => .ok s

/-- value.go:87-109, int.go:20-29, enum.go:18-23: try as an integer, then as an enumeration constant -/
def unmarshalText (text : Str) : Res Value :=
  let text := trimSpace text
  let parsers : List (Option Value) :=
    [ (parseInt text).map Value.int, some (Value.enum text) ]
  match parsers.findSome? id with
  | some v => .ok v
  | Option.none => throwErr .unsupportedValueType

/-- value.go:77-85, int.go:35-37, enum.go:29-31 -/
def stringValue : Value → Str
  | .none => []
  | .int i => formatInt i
  | .enum s => s

/-- value.go:111-117, int.go:39-45, enum.go:33-35 -/
def type : Value → RsType
  | .none => RsType.empty
  | .int i => if 0 ≤ i.toInt then RsType.arithmos .nat else RsType.arithmos .int
  | .enum _ => RsType.enum

end Value

/-! ### Events (testlang/event.go) -/

/-- testlang.Event, event.go:14-17. -/
structure Event where
  channel : Channel
  value : Value
  deriving DecidableEq, Repr

namespace Event

/-- The zero value of the Go struct, testlang/event.go:14-17. -/
def zero : Event := ⟨Channel.zero, .none⟩

/-- event.go:20-22 -/
def new (ch : Str) (d : Kind) (v : Value) : Event := ⟨⟨ch, d⟩, v⟩
/-- event.go:25-27 -/
def input (ch : Str) (v : Value) : Event := new ch .in_ v
/-- event.go:30-32 -/
def output (ch : Str) (v : Value) : Event := new ch .out v

/-- event.go:35-37 -/
def equals (e other : Event) : Bool := e.channel.equals other.channel && e.value.equals other.value

/-- event.go:39-55 -/
def marshalText (e : Event) : Res Str :=
  let chanBytes := e.channel.marshalText
  if e.value.isEmpty then .ok chanBytes
  else match e.value.marshalText with
    | .error err => .error err
    | .ok val => .ok (Channel.eventSepJoin chanBytes val)

/-- event.go:66-82, with the receiver's old content as an argument.  Returns the receiver afterwards and the
error, if any. -/
def unmarshalText (old : Event) (text : Str) : Event × Option Fail :=
  match Channel.unmarshalTextWithRemainder old.channel text with
  | (c, .error e) => ({ old with channel := c }, some e)
  | (c, .ok Option.none) => ({ old with channel := c }, Option.none)
  | (c, .ok (some val)) =>
    match Value.unmarshalText val with
    | .error e => ({ old with channel := c }, some e)
    | .ok v => (⟨c, v⟩, Option.none)

/-- Unmarshalling into a fresh (zero) event, the way `trace.Read` and `encoding/json` use it (trace/read.go:67). -/
def parse (text : Str) : Res Event :=
  match unmarshalText zero text with
  | (e, Option.none) => .ok e
  | (_, some f) => .error f

end Event

end Rtcg
