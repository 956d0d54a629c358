import Verif.Spec.CppHarness
import Verif.Spec.Gen

/-
Programs that convert.h is a part of: some functions are found there rather than in libraries.
-/

namespace Rtcg

namespace Spec

namespace Cpp

open Templates Rtcg.Cpp

/-- Is it the name of one of some functions, which are in no namespace or class? -/
def among (D : Str → Bool) : List Str → Bool
  | [g] => D g
  | _ => false

/-- A library in which some functions take one argument and return it; the rest is as in another library -/
def Lib.returning (L : Lib) (D : Str → Bool) : Lib :=
  { L with
    takes := fun q n => if among D q then n = 1 else L.takes q n
    val := fun q args => if among D q then args.head?.getD .void else L.val q args }

/-- Is it something other than a call of one of some functions? -/
def notCall (D : Str → Bool) : Effect → Bool
  | .call q _ => !among D q
  | .out _ => true

/-- The C++ type that stands for a type -/
def cppType (t : RsType) : CType :=
  if t.isEnum then ⟨false, [c!"std", c!"string"], []⟩
  else if t.isNat then ⟨false, [c!"unsigned int"], []⟩
  else if t.isInt then ⟨false, [c!"int"], []⟩
  else if t.isReal then ⟨false, [c!"double"], []⟩
  else ⟨false, [c!"void"], [c!"*"]⟩

/-- The conversions of a channel: from a message to a value of its type, and from such a value to what is sent -/
def fromSig (U : Unicode) (ch : Str) (t : RsType) : Sig := ⟨[convertFrom U ch], some (cppType t), [⟨true, [channelMsgType U ch], []⟩]⟩

def toSig (U : Unicode) (ch : Str) (t : RsType) : Sig :=
  ⟨[convertTo U ch], some ⟨false, [channelValueType U ch], []⟩, [{ cppType t with const := true }]⟩

/-- A type is configured for a channel; then its conversions are the user's -/
def Overridden (c : CppConfig.Config) (ch : Str) : Prop := ∃ ty, configuredType c ch = some ty ∧ ty ≠ []

instance (c : CppConfig.Config) (ch : Str) : Decidable (Overridden c ch) :=
  match h : configuredType c ch with
  | none => isFalse (by rintro ⟨ty, h1, _⟩; rw [h] at h1; cases h1)
  | some ty => decidable_of_iff (ty ≠ []) ⟨fun h1 => ⟨ty, h, h1⟩, fun ⟨ty', h1, h2⟩ => by rw [h] at h1; cases h1; exact h2⟩

/-- What is sent for a value: what the user's conversion gives if a type is configured for the channel, and otherwise the value -/
def sentFor (L : Lib) (U : Unicode) (c : CppConfig.Config) (x : Channel × Value) : Val :=
  if Overridden c x.1.name then L.val [convertTo U x.1.name] [valueVal x.2] else valueVal x.2

/-- Sending a value on a channel, in an animation that convert.h is a part of, as it can be seen -/
def wholeSend (L : Lib) (U : Unicode) (c : CppConfig.Config) (x : Channel × Value) : Effect :=
  .out [.glob [c!"std", c!"cerr"], .str c!"[info] ", .str (sentWords x.1.name), sentFor L U c x, .str c!")", .glob [c!"std", c!"endl"]]

/-- The libraries declare what an animation that convert.h is a part of needs: streams, and the conversions of channels that a type is
configured for -/
structure WholeLib (L : Lib) (U : Unicode) (c : CppConfig.Config) (chans : Str → Prop) : Prop where
  std : ∀ x ∈ [c!"cerr", c!"cout", c!"endl"], L.known [c!"std", x] = true
  convert : ∀ ch, chans ch → Overridden c ch → L.takes [convertTo U ch] 1 = true ∧ L.takes [convertFrom U ch] 1 = true

/-- The user's conversions of a channel, if a type is configured for it, do not change a value -/
def Keeps (L : Lib) (U : Unicode) (c : CppConfig.Config) (ch : Str) (x : Value) : Prop :=
  Overridden c ch → L.val [convertFrom U ch] [L.val [convertTo U ch] [valueVal x]] = valueVal x

/-- The channels of a suite and the configuration can be written in convert.h, and no two channels have the same conversions -/
structure ConvertNames (U : Unicode) (c : CppConfig.Config) (chans : Str → Prop) : Prop where
  words : ∀ ch, chans ch → WordName ch
  distinct : ∀ a b, chans a → chans b → convertTo U a = convertTo U b → a = b
  includes : ∀ i ∈ c.includes, OneLine i.src
  types : ∀ x ∈ c.channels, OneLine x.type

/-- Is it the conversion of a channel that no type is configured for? -/
def defaults (U : Unicode) (ctx : CppConfig.Context) (g : Str) : Bool :=
  ctx.channelTypes.any fun e => !e.2.hasOverride && (g = convertFrom U e.1 || g = convertTo U e.1)

/-- The state, were calls of some functions not recorded -/
def St.without (st : St) (D : Str → Bool) : St := { st with eff := st.eff.filter (notCall D) }

end Cpp

end Spec

end Rtcg
