import Verif.Model.Base

/-
Specification vocabulary about texts, independent of how the code scans them.
-/

namespace Rtcg.Spec

open Rtcg

/-- The white space characters of Unicode (property White_Space), by code point. -/
def white : Char → Bool := fun c => decide (c.toNat ∈
  [0x09, 0x0A, 0x0B, 0x0C, 0x0D, 0x20, 0x85, 0xA0, 0x1680, 0x2000, 0x2001, 0x2002, 0x2003, 0x2004, 0x2005, 0x2006, 0x2007,
   0x2008, 0x2009, 0x200A, 0x2028, 0x2029, 0x202F, 0x205F, 0x3000])

/-- `s` neither starts nor ends with white space. -/
def NoOuterSpace (s : Str) : Prop :=
  (∀ c r, s = c :: r → white c = false) ∧ (∀ r c, s = r ++ [c] → white c = false)

/-- `t` is `s` without its surrounding white space. -/
def Stripped (s t : Str) : Prop :=
  NoOuterSpace t ∧ ∃ l r, s = l ++ t ++ r ∧ (∀ c ∈ l, white c = true) ∧ (∀ c ∈ r, white c = true)

/-- `c` is `d` or an upper-case form of the lower-case ASCII letter `d` (the Turkish dotted capital I and
the Kelvin sign count: Unicode gives them lower-case forms i and k). -/
def CharVariant (c d : Char) : Prop :=
  c = d ∨ ('A' ≤ c ∧ c ≤ 'Z' ∧ d.toNat = c.toNat + 32) ∨ (c = '\u0130' ∧ d = 'i') ∨ (c = '\u212a' ∧ d = 'k')

/-- `s` is the lower-case text `lit` in some mixture of cases. -/
def SameIgnoringCase : Str → Str → Prop
  | [], [] => True
  | c :: s, d :: lit => CharVariant c d ∧ SameIgnoringCase s lit
  | _, _ => False

/-- The number denoted by a string of decimal digits, most significant first. -/
def digitsValue : Str → Nat
  | [] => 0
  | d :: ds => (d.toNat - 48) * 10 ^ ds.length + digitsValue ds

/-- `s` is an optional sign followed by one or more decimal digits, denoting `n`. -/
def DenotesInt (s : Str) (n : Int) : Prop :=
  ∃ sign ds, s = sign ++ ds ∧ ds ≠ [] ∧ (∀ d ∈ ds, '0' ≤ d ∧ d ≤ '9') ∧
    ((sign = [] ∧ n = digitsValue ds) ∨ (sign = ['+'] ∧ n = digitsValue ds) ∨
     (sign = ['-'] ∧ n = -(digitsValue ds : Int)))

/-- `s` is the usual decimal text of `n`: a minus sign exactly for negative numbers, no plus sign, no leading zeros. -/
def CanonicalInt (s : Str) (n : Int) : Prop :=
  DenotesInt s n ∧ s.head? ≠ some '+' ∧ (s.head? = some '-' ↔ n < 0) ∧
    (∀ r, s = '0' :: r → r = []) ∧ (∀ r, s ≠ '-' :: '0' :: r)

/-- `s` reads as a number in the signed 64-bit range. -/
def ReadsAsInt64 (s : Str) : Prop := ∃ n : Int, DenotesInt s n ∧ -2 ^ 63 ≤ n ∧ n < 2 ^ 63

end Rtcg.Spec
