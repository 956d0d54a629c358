/-
Base notions shared by the whole model: text, error values, and the pieces of Go's standard library
(`strings`, `bytes`, `strconv`, `unicode`) that the code in /repo calls.
-/

namespace Rtcg

/-- Go `string` / text `[]byte`. Simplification: texts are valid UTF-8, i.e. lists of code points. (E.g. the fields of testlang/channel/channel.go:13-16.) -/
abbrev Str := List Char

/-- `c!"in"` is the explicit character list `['i', 'n']`. -/
syntax:max "c!" str : term

macro_rules
  | `(c! $s:str) => do
    let mut t ← `(([] : List Char))
    for c in s.getString.toList.reverse do
      t ← `(List.cons $(⟨Lean.Syntax.mkCharLit c⟩) $t)
    return t

/-- The innermost sentinel or typed error of an `error` value.  Simplification: the context text added by
`fmt.Errorf("...: %w", err)` is dropped; `errors.Is`/`errors.As` would find exactly these. -/
inductive Err where
  /-- channel.BadFieldCountError, channel.go:132-138 -/
  | badFieldCount (got : Nat)
  /-- ErrInvalid… of the go-enum generated parsers (channel/kind_enum.go:27, outcome_enum.go:31, …) -/
  | invalidEnum
  /-- value.ErrMarshallAbsentValue, value.go:140 -/
  | marshalAbsentValue
  /-- value.ErrUnsupportedValueType, value.go:141 -/
  | unsupportedValueType
  /-- rstype.TypeMarshalError, rstype/error.go -/
  | typeMarshal
  /-- rstype.TypeUnmarshalError, rstype/error.go -/
  | typeUnmarshal (name : Str)
  /-- rstype.ErrUnifyDifferentKinds, rstype/error.go -/
  | unifyDifferentKinds
  /-- csv.ErrBareQuote of encoding/csv -/
  | csvBareQuote
  /-- csv.ErrQuote of encoding/csv -/
  | csvQuote
  /-- trace.ErrNeedOneEvent, trace/read.go -/
  | needOneEvent
  /-- trace.BadOutcomeError, trace/collapse.go:71-78 -/
  | badOutcomeInTrace (o : UInt8)
  /-- validate.ErrBadOutcome, validate/errors.go:7 -/
  | badOutcome
  /-- validate.ErrFailHasEvent, validate/errors.go:10 -/
  | failHasEvent
  /-- validate.ErrFailHasNextNodes, validate/errors.go:13 -/
  | failHasNextNodes
  /-- validate.ErrNeedOneNode, validate/errors.go:16 -/
  | needOneNode (got : Nat)
  /-- validate.ErrNoEvent, validate/errors.go:19 -/
  | noEvent
  /-- validate.ErrNoNextNodes, validate/errors.go:22 -/
  | noNextNodes
  /-- validate.ErrNoOutcome, validate/errors.go:25 -/
  | noOutcome
  /-- validate.ErrNoTests, validate/errors.go:28 -/
  | noTests
  /-- validate.ErrRootHasEvent, validate/errors.go:31 -/
  | rootHasEvent
  /-- validate.ErrRootHasOutcome, validate/errors.go:34 -/
  | rootHasOutcome
  /-- cli.ErrBadArgs, cli/cli.go -/
  | badArgs
  /-- io.EOF -/
  | eof
  /-- ErrCleanDot, cmd/rtcg-gen/main.go -/
  | cleanDot
  /-- a failure of an operating system call -/
  | os
  /-- a JSON value of a shape that encoding/json refuses to decode into the target type -/
  | jsonShape
  /-- json.SyntaxError, or io.ErrUnexpectedEOF, of encoding/json -/
  | jsonSyntax
  /-- the json.SyntaxError for nesting deeper than encoding/json allows -/
  | jsonDepth
  /-- an error of text/template while executing a template -/
  | template
  /-- xml.SyntaxError, and the other errors of encoding/xml for texts it does not accept -/
  | xmlSyntax
  /-- xml.UnmarshalError for the wrong root element, or an error of strconv for an attribute -/
  | xmlShape
  deriving DecidableEq, Repr

/-- How a Go call can fail: by returning an `error`, or by panicking. (E.g. stm/builder.go:20-36 returns errors.) -/
inductive Fail where
  | err (e : Err)
  | panic
  deriving DecidableEq, Repr

/-- The result of a Go function returning `(α, error)`, which might also panic. (E.g. trace/read.go:14.) -/
abbrev Res (α : Type) := Except Fail α

deriving instance DecidableEq for Except

/-- Return an error. (E.g. trace/read.go:52.) -/
def throwErr {α : Type} (e : Err) : Res α := .error (.err e)

/-! ### unicode, strings, bytes -/

/-- Go `unicode.IsSpace` (White_Space property), written out. (Used by the trimming of trace/read.go:77-78.) -/
def isSpace (c : Char) : Bool :=
  let n := c.toNat
  (9 ≤ n && n ≤ 13) || n == 0x20 || n == 0x85 || n == 0xA0 || n == 0x1680 ||
    (0x2000 ≤ n && n ≤ 0x200A) || n == 0x2028 || n == 0x2029 || n == 0x202F || n == 0x205F || n == 0x3000

/-- `strings.TrimLeftFunc(s, unicode.IsSpace)`. (For trace/read.go:42, 77-78.) -/
def trimLeft (s : Str) : Str := s.dropWhile isSpace

/-- `strings.TrimRightFunc(s, unicode.IsSpace)`. (For trace/read.go:77-78.) -/
def trimRight (s : Str) : Str := (s.reverse.dropWhile isSpace).reverse

/-- `strings.TrimSpace` / `bytes.TrimSpace`. (Called at trace/read.go:77-78, testlang/channel/channel.go:117-119, testlang/value/value.go:88.) -/
def trimSpace (s : Str) : Str := trimRight (trimLeft s)

/-- `strings.Cut(s, sep)` for a one-character separator: the parts before and after its first occurrence. (Called at trace/read.go:76.) -/
def cut (sep : Char) : Str → Option (Str × Str)
  | [] => none
  | c :: cs =>
    if c = sep then some ([], cs)
    else match cut sep cs with
      | none => none
      | some (a, b) => some (c :: a, b)

/-- `bytes.SplitN(s, sep, n)` for a one-character separator and `n ≥ 0`. (Called at testlang/channel/channel.go:110.) -/
def splitN (sep : Char) : Nat → Str → List Str
  | 0, _ => []
  | 1, s => [s]
  | n + 2, s =>
    match cut sep s with
    | none => [s]
    | some (a, b) => a :: splitN sep (n + 1) b

/-- The lower-case mapping, as far as it can influence a comparison with an ASCII text: Go's
`unicode.ToLower` maps exactly A–Z, U+0130 (dotted capital I) and U+212A (Kelvin sign) to ASCII letters,
and leaves a–z and other ASCII alone.  Simplification: all other characters are left unchanged here (they
have a non-ASCII image in Go as well, so no comparison with an ASCII text can tell). (For testlang/rstype/rstype.go:88.) -/
def lowerChar (c : Char) : Char :=
  if 'A' ≤ c ∧ c ≤ 'Z' then Char.ofNat (c.toNat + 32)
  else if c = '\u0130' then 'i'
  else if c = '\u212a' then 'k'
  else c

/-- `strings.ToLower` / `bytes.ToLower`, for comparison with ASCII texts (see `lowerChar`). (Called at testlang/rstype/rstype.go:88.) -/
def toLower (s : Str) : Str := s.map lowerChar

/-! ### strconv, fmt -/

/-- `%d` of a non-negative number. (For trace/trace.go:117-119.) -/
def decNat (n : Nat) : Str := Nat.toDigits 10 n

/-- `strconv.FormatInt(i, 10)` / `strconv.AppendInt` / `%d`. (Called at testlang/value/int.go:17, 32, 36.) -/
def formatInt (i : Int64) : Str :=
  if i.toInt < 0 then '-' :: decNat i.toInt.natAbs else decNat i.toInt.natAbs

/-- `strconv.ParseUint(s, 10, 64)`.  Simplification: the accumulator is a natural number, so a number of
any length is read, and the caller does the range check. (For testlang/value/int.go:22.) -/
def parseUint (s : Str) : Option Nat :=
  if s = [] then none
  else if s.all Char.isDigit then some (Nat.ofDigitChars 10 s 0)
  else none

/-- The part of `strconv.ParseInt(s, 10, 64)` after the sign: digits, then the range check. (For testlang/value/int.go:22.) -/
def parseIntTail (neg : Bool) (rest : Str) : Option Int64 :=
  match parseUint rest with
  | none => none
  | some un =>
    if !neg && un ≥ 2 ^ 63 then none
    else if neg && un > 2 ^ 63 then none
    else some (Int64.ofInt (if neg then -(un : Int) else (un : Int)))

/-- `strconv.ParseInt(s, 10, 64)`; every error is `none`. (Called at testlang/value/int.go:22.) -/
def parseInt (s : Str) : Option Int64 :=
  match s with
  | '+' :: r => parseIntTail false r
  | '-' :: r => parseIntTail true r
  | r => parseIntTail false r

/-! ### loops -/

/-- A Go `for` loop: `step` is one iteration, giving the next state or leaving the loop with a result.
`none` means that `fuel` iterations were not enough. (E.g. trace/read.go:19-35, trace/trace.go:102-110.) -/
def loop {σ ρ : Type} (step : σ → σ ⊕ ρ) : Nat → σ → Option ρ
  | 0, _ => none
  | fuel + 1, s =>
    match step s with
    | .inl s' => loop step fuel s'
    | .inr r => some r

/-! ### association lists standing for Go maps -/

/-- A Go map with string-like keys, as the list of its entries in some iteration order.  Invariant kept by
all operations: keys are distinct. (E.g. stm/verdict/verdict.go:17, stm/stm.go:36.) -/
abbrev GoMap (κ : Type) (α : Type) := List (κ × α)

namespace GoMap
variable {κ α : Type} [DecidableEq κ]

/-- `v, ok := m[k]`. (E.g. trace/trace.go:105.) -/
def get? (m : GoMap κ α) (k : κ) : Option α :=
  match m with
  | [] => none
  | (k', v) :: m' => if k' = k then some v else get? m' k

/-- `m[k] = v`: overwrites in place, or adds a new entry. (E.g. trace/trace.go:106.) -/
def set (m : GoMap κ α) (k : κ) (v : α) : GoMap κ α :=
  match m with
  | [] => [(k, v)]
  | (k', v') :: m' => if k' = k then (k, v) :: m' else (k', v') :: set m' k v

/-- The keys, in iteration order. (E.g. stm/verdict/verdict.go:23-25.) -/
def keys (m : GoMap κ α) : List κ := m.map (·.1)

/-- Distinct keys: what every Go map satisfies. (E.g. stm/verdict/verdict.go:17.) -/
def WF (m : GoMap κ α) : Prop := (m.map (·.1)).Nodup

instance (m : GoMap κ α) : Decidable (WF m) := inferInstanceAs (Decidable (List.Nodup _))

/-- The same map, whatever the iteration orders. (E.g. stm/verdict/verdict.go:17.) -/
def Equiv (m m' : GoMap κ α) : Prop := ∀ k, get? m k = get? m' k

end GoMap

end Rtcg
