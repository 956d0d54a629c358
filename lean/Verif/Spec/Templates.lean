import Verif.Spec.Json

/-
Specification vocabulary for what the templates declare and refer to.
-/

namespace Rtcg.Spec

open Rtcg

/-- `r` is what rtcg-make-stms makes of the validated suite `ts`, in any orders of its maps (so also after being written and read). -/
def MadeFrom (ts : GoMap Str Validate.Test) (r : StmSuite) : Prop :=
  GoMap.WF ts ∧ Validated ts ∧ (∃ b b' r₀, Builder.buildSuite b ts = .ok (b', r₀) ∧ SameStmSuite r₀ r) ∧
    GoMap.WF r.types ∧ GoMap.WF r.tests ∧ ∀ k m, (k, m) ∈ r.tests → StmMaps m

/-- The channel is used in a transition of the machine. -/
def UsesChannel (m : Stm) (c : Channel) : Prop := ∃ s ∈ m.states, ∃ ts ∈ s.transitionSets, ts.channel = c

end Rtcg.Spec

namespace Rtcg.Spec

open Rtcg

/-- No two different channels of the machine satisfying `P` are given the same name by `f`. -/
def DistinctBy (f : Str → Str) (m : Stm) (P : Channel → Prop) : Prop :=
  ∀ c c', UsesChannel m c → UsesChannel m c' → P c → P c' → f c.name = f c'.name → c = c'

/-- An output channel: one that is not an input. -/
def IsOut (c : Channel) : Prop := c.kind ≠ kIn

/-- An input channel. -/
def IsIn (c : Channel) : Prop := c.kind = kIn

/-- The machine has an output channel of that name. -/
def HasOut (m : Stm) (name : Str) : Prop := ∃ c, UsesChannel m c ∧ IsOut c ∧ c.name = name

/-- Some state sends an input. -/
def SendsInput (m : Stm) : Prop := ∃ c, UsesChannel m c ∧ IsIn c

/-- The first state sends an input. -/
def FirstSendsInput (m : Stm) : Prop := ∃ s, m.states.head? = some s ∧ ∃ ts ∈ s.transitionSets, ts.channel.kind = kIn

end Rtcg.Spec

namespace Rtcg.Spec

open Rtcg

/-! ### C++ literals and types -/

/-- The rest of a C++ string literal after its opening quote, and the text it stands for.  `esc r c r'`: after a backslash, `r` begins
with an escape sequence for `c`, and `r'` is left.  (Trigraphs are left out.) -/
inductive StringBody (esc : Str → Char → Str → Prop) : Str → Str → Prop where
  | close : StringBody esc ['"'] []
  | char (c : Char) (r s : Str) : c ≠ '"' → c ≠ '\\' → c ≠ '\n' → StringBody esc r s → StringBody esc (c :: r) (c :: s)
  | escape (r : Str) (c : Char) (r' s : Str) : esc r c r' → StringBody esc r' s → StringBody esc ('\\' :: r) (c :: s)

/-- `t` is a decimal C++ integer literal, possibly negated, for `n`: no leading zero (that would be octal), and the literal itself, without
its sign, fits in 64 bits signed. -/
def CppInt (t : Str) (n : Int) : Prop :=
  ∃ ds, ds ≠ [] ∧ (∀ d ∈ ds, '0' ≤ d ∧ d ≤ '9') ∧ (∀ r, ds = '0' :: r → r = []) ∧ digitsValue ds < 2 ^ 63 ∧
    (t = ds ∧ n = digitsValue ds ∨ t = '-' :: ds ∧ n = -(digitsValue ds : Int))

/-- `t` is a C++ literal for the value. -/
def CppLiteral (esc : Str → Char → Str → Prop) (t : Str) : Value → Prop
  | .none => False
  | .int i => CppInt t i.toInt
  | .enum s => ∃ b, t = '"' :: b ∧ StringBody esc b s

/-- A value of the C++ type (with 32-bit `int`) can hold the value. -/
def Holds (type : Str) : Value → Prop
  | .none => False
  | .int i => type = "unsigned int".toList ∧ 0 ≤ i.toInt ∧ i.toInt < 2 ^ 32 ∨ type = "int".toList ∧ -2 ^ 31 ≤ i.toInt ∧ i.toInt < 2 ^ 31 ∨
      type = "double".toList ∧ -2 ^ 53 ≤ i.toInt ∧ i.toInt ≤ 2 ^ 53
  | .enum _ => type = "std::string".toList

/-- Some test of the suite has a negative value on the channel called `name`. -/
def CarriesNegative (ts : GoMap Str Validate.Test) (name : Str) : Prop :=
  ∃ nt ∈ ts, ∃ p n e i, nodeAt nt.2.root p = some n ∧ n.outcome ≠ oFail ∧ n.event = some e ∧ e.channel.name = name ∧
    e.value = .int i ∧ i.toInt < 0

end Rtcg.Spec
