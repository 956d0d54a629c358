import Verif.Model.Stm
import Verif.Model.Trace

/-
The descriptions of values, events, traces and verdicts: the `String` methods, which reports show.
-/

namespace Rtcg

/-! ### strconv.Quote -/

/-- The digits of `strconv`'s `lowerhex`, strconv/quote.go -/
def hexDigit (n : Nat) : Char := if n < 10 then Char.ofNat (48 + n) else Char.ofNat (87 + n)

/-- The last `k` hexadecimal digits of `n`: the loops of `appendEscapedRune`, strconv/quote.go -/
def hexDigits : Nat → Nat → Str
  | 0, _ => []
  | k + 1, n => hexDigits k (n / 16) ++ [hexDigit (n % 16)]

/-- `appendEscapedRune` of strconv/quote.go, with the quote `"` and neither ASCIIonly nor graphicOnly.  The table of printable characters
(`strconv.IsPrint`) is a parameter: nothing below depends on it. -/
def quoteChar (isPrint : Char → Bool) (c : Char) : Str :=
  if c = '"' ∨ c = '\\' then ['\\', c]
  else if isPrint c then [c]
  else if c = '\x07' then c!"\\a"
  else if c = '\x08' then c!"\\b"
  else if c = '\x0c' then c!"\\f"
  else if c = '\n' then c!"\\n"
  else if c = '\r' then c!"\\r"
  else if c = '\t' then c!"\\t"
  else if c = '\x0b' then c!"\\v"
  else if c < ' ' ∨ c = '\x7f' then '\\' :: 'x' :: hexDigits 2 c.toNat
  else if c.toNat < 0x10000 then '\\' :: 'u' :: hexDigits 4 c.toNat
  else '\\' :: 'U' :: hexDigits 8 c.toNat

/-- `%q` of a string: `strconv.Quote`. (testlang/value/enum.go:26.) -/
def goQuote (isPrint : Char → Bool) (s : Str) : Str := '"' :: s.flatMap (quoteChar isPrint) ++ ['"']

/-- `strings.Join(items, ", ")`. (trace/trace.go:30, stm/verdict/verdict.go:102, stm/transition/set.go:55.) -/
def commaJoin : List Str → Str
  | [] => []
  | [a] => a
  | a :: b :: r => a ++ ',' :: ' ' :: commaJoin (b :: r)

/-! ### The String methods -/

/-- (*Value).String, testlang/value/value.go:69-75; int.go:31-33; enum.go:25-27 -/
def Value.string (isPrint : Char → Bool) : Value → Str
  | .none => c!"(empty value)"
  | .int i => c!"int!" ++ formatInt i
  | .enum s => c!"enum!" ++ goQuote isPrint s

/-- (*Event).String, testlang/event.go:57-64 -/
def Event.string (isPrint : Char → Bool) (e : Event) : Str :=
  if e.value.isEmpty then e.channel.string else e.channel.string ++ '.' :: e.value.string isPrint

/-- Trace.String, trace/trace.go:23-31 -/
def Trace.string (isPrint : Char → Bool) (t : Trace) : Str := '<' :: commaJoin (t.map (Event.string isPrint)) ++ ['>']

/-- Forbidden.String, trace/trace.go:72-80 -/
def Forbidden.string (isPrint : Char → Bool) (t : Forbidden) : Str :=
  (if t.name = [] then [] else t.name ++ [':']) ++ Trace.string isPrint t.pre ++ '!' :: t.forbid.string isPrint

/-- (*Verdict).String, stm/verdict/verdict.go:93-103; a test that is not in the map has the zero outcome, as in Go -/
def Verdict.string (v : Verdict) : Str :=
  commaJoin (v.tests.map fun t => t ++ ':' :: ' ' :: ((GoMap.get? v t).getD .unset).string)

/-- Transition.String, stm/transition/transition.go:19-21 -/
def Transition.string (isPrint : Char → Bool) (t : Transition) : Str :=
  c!"-[" ++ t.value.string isPrint ++ c!"]-> " ++ t.next

/-- Set.String, stm/transition/set.go:49-56 -/
def TSet.string (isPrint : Char → Bool) (t : TSet) : Str :=
  t.channel.string ++ c!":{" ++ commaJoin (t.transitions.map (Transition.string isPrint)) ++ c!"}"

/-- (*State).String, stm/state.go:68-81 -/
def State.string (isPrint : Char → Bool) (s : State) : Str :=
  s.id ++ c!":{" ++ s.verdict.string ++ c!"}(" ++ commaJoin (s.transitionSets.map (TSet.string isPrint)) ++ c!")"

end Rtcg
