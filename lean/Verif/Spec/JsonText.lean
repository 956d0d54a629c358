import Verif.Model.Json

/-
JSON as text, after RFC 8259: which texts stand for which values.
-/

namespace Rtcg.Spec

open Rtcg

/-- White space. -/
def Blanks (s : Str) : Prop := ∀ c ∈ s, c ∈ [' ', '\t', '\n', '\r']

/-- The hexadecimal digits and what they stand for. -/
def hexDigits : List (Char × Nat) :=
  [('0', 0), ('1', 1), ('2', 2), ('3', 3), ('4', 4), ('5', 5), ('6', 6), ('7', 7), ('8', 8), ('9', 9),
   ('a', 10), ('b', 11), ('c', 12), ('d', 13), ('e', 14), ('f', 15), ('A', 10), ('B', 11), ('C', 12), ('D', 13), ('E', 14), ('F', 15)]

/-- The escapes of one letter and the characters they stand for. -/
def letterEscapes : List (Char × Char) :=
  [('"', '"'), ('\\', '\\'), ('/', '/'), ('b', Char.ofNat 8), ('f', Char.ofNat 12), ('n', '\n'), ('r', '\r'), ('t', '\t')]

/-- The UTF-16 code units of a character. -/
def utf16 (c : Char) : List Nat :=
  if c.toNat < 0x10000 then [c.toNat]
  else [0xD800 + (c.toNat - 0x10000) / 0x400, 0xDC00 + (c.toNat - 0x10000) % 0x400]

/-- The text between the quotes of a string, and the UTF-16 code units it denotes. -/
inductive StringUnits : Str → List Nat → Prop
  | nil : StringUnits [] []
  | plain {c : Char} {t : Str} {us : List Nat} (hc : 32 ≤ c.toNat) (hq : c ≠ '"') (hb : c ≠ '\\') (h : StringUnits t us) :
      StringUnits (c :: t) (utf16 c ++ us)
  | letter {e x : Char} {t : Str} {us : List Nat} (he : (e, x) ∈ letterEscapes) (h : StringUnits t us) :
      StringUnits ('\\' :: e :: t) (utf16 x ++ us)
  | unicode {a b c d : Char} {k l m n : Nat} {t : Str} {us : List Nat} (ha : (a, k) ∈ hexDigits) (hb : (b, l) ∈ hexDigits)
      (hc : (c, m) ∈ hexDigits) (hd : (d, n) ∈ hexDigits) (h : StringUnits t us) :
      StringUnits ('\\' :: 'u' :: a :: b :: c :: d :: t) ((k * 4096 + l * 256 + m * 16 + n) :: us)

/-- The first of a pair of surrogates. -/
def High (u : Nat) : Prop := 0xD800 ≤ u ∧ u < 0xDC00

/-- The second of a pair of surrogates. -/
def Low (u : Nat) : Prop := 0xDC00 ≤ u ∧ u < 0xE000

/-- The characters that UTF-16 code units denote; a surrogate that is not part of a pair denotes the replacement character. -/
inductive Utf16 : List Nat → Str → Prop
  | nil : Utf16 [] []
  | char {c : Char} {us : List Nat} {s : Str} (h : Utf16 us s) : Utf16 (utf16 c ++ us) (c :: s)
  | lone {u : Nat} {us : List Nat} {s : Str} (hu : High u ∨ Low u) (hl : High u → ∀ l r, us = l :: r → ¬ Low l) (h : Utf16 us s) :
      Utf16 (u :: us) (Char.ofNat 0xFFFD :: s)

/-- A string as text. -/
def StringText (t s : Str) : Prop := ∃ body us, t = '"' :: (body ++ ['"']) ∧ StringUnits body us ∧ Utf16 us s

/-- One or more decimal digits. -/
def Digits (t : Str) : Prop := t ≠ [] ∧ ∀ c ∈ t, c.isDigit = true

/-- A number as text. -/
def NumberText (t : Str) : Prop :=
  ∃ sign int frac exp, t = sign ++ int ++ frac ++ exp ∧ (sign = [] ∨ sign = ['-']) ∧
    (int = ['0'] ∨ (Digits int ∧ int.head? ≠ some '0')) ∧
    (frac = [] ∨ ∃ ds, frac = '.' :: ds ∧ Digits ds) ∧
    (exp = [] ∨ ∃ e sg ds, exp = e :: (sg ++ ds) ∧ (e = 'e' ∨ e = 'E') ∧ (sg = [] ∨ sg = ['+'] ∨ sg = ['-']) ∧ Digits ds)

mutual
/-- A value and a text for it. -/
inductive JsonText : Json → Str → Prop
  | null : JsonText .null c!"null"
  | true : JsonText (.bool true) c!"true"
  | false : JsonText (.bool false) c!"false"
  | num {t : Str} (h : NumberText t) : JsonText (.num t) t
  | str {t s : Str} (h : StringText t s) : JsonText (.str s) t
  | arrNil {w : Str} (h : Blanks w) : JsonText (.arr []) ('[' :: (w ++ [']']))
  | arr {xs : List Json} {t : Str} (h : ElemsText xs t) : JsonText (.arr xs) ('[' :: (t ++ [']']))
  | objNil {w : Str} (h : Blanks w) : JsonText (.obj []) ('{' :: (w ++ ['}']))
  | obj {fs : List (Str × Json)} {t : Str} (h : FieldsText fs t) : JsonText (.obj fs) ('{' :: (t ++ ['}']))
/-- The elements of an array, at least one. -/
inductive ElemsText : List Json → Str → Prop
  | one {x : Json} {t w w' : Str} (hw : Blanks w) (h : JsonText x t) (hw' : Blanks w') : ElemsText [x] (w ++ t ++ w')
  | more {x : Json} {xs : List Json} {t w w' ts : Str} (hw : Blanks w) (h : JsonText x t) (hw' : Blanks w') (hs : ElemsText xs ts) :
      ElemsText (x :: xs) (w ++ t ++ w' ++ ',' :: ts)
/-- The fields of an object, at least one. -/
inductive FieldsText : List (Str × Json) → Str → Prop
  | one {k : Str} {x : Json} {tk t w w' v v' : Str} (hw : Blanks w) (hk : StringText tk k) (hw' : Blanks w') (hv : Blanks v)
      (h : JsonText x t) (hv' : Blanks v') : FieldsText [(k, x)] (w ++ tk ++ w' ++ ':' :: (v ++ t ++ v'))
  | more {k : Str} {x : Json} {fs : List (Str × Json)} {tk t w w' v v' ts : Str} (hw : Blanks w) (hk : StringText tk k)
      (hw' : Blanks w') (hv : Blanks v) (h : JsonText x t) (hv' : Blanks v') (hs : FieldsText fs ts) :
      FieldsText ((k, x) :: fs) (w ++ tk ++ w' ++ ':' :: (v ++ t ++ v' ++ ',' :: ts))
end

mutual
/-- Arrays and objects are nested at most so deep. -/
inductive Nested : Nat → Json → Prop
  | null {n : Nat} : Nested n .null
  | bool {n : Nat} {b : Bool} : Nested n (.bool b)
  | num {n : Nat} {t : Str} : Nested n (.num t)
  | str {n : Nat} {s : Str} : Nested n (.str s)
  | arr {n : Nat} {xs : List Json} (h : NestedElems n xs) : Nested (n + 1) (.arr xs)
  | obj {n : Nat} {fs : List (Str × Json)} (h : NestedFields n fs) : Nested (n + 1) (.obj fs)
/-- All of the elements are. -/
inductive NestedElems : Nat → List Json → Prop
  | nil {n : Nat} : NestedElems n []
  | cons {n : Nat} {x : Json} {xs : List Json} (h : Nested n x) (hs : NestedElems n xs) : NestedElems n (x :: xs)
/-- All of the fields are. -/
inductive NestedFields : Nat → List (Str × Json) → Prop
  | nil {n : Nat} : NestedFields n []
  | cons {n : Nat} {k : Str} {x : Json} {fs : List (Str × Json)} (h : Nested n x) (hs : NestedFields n fs) :
      NestedFields n ((k, x) :: fs)
end

mutual
/-- All numbers in the value are numbers. -/
def NumbersOK : Json → Prop
  | .num t => NumberText t
  | .arr xs => NumbersOKElems xs
  | .obj fs => NumbersOKFields fs
  | _ => True
/-- In all of the elements. -/
def NumbersOKElems : List Json → Prop
  | [] => True
  | x :: xs => NumbersOK x ∧ NumbersOKElems xs
/-- In all of the fields. -/
def NumbersOKFields : List (Str × Json) → Prop
  | [] => True
  | (_, x) :: fs => NumbersOK x ∧ NumbersOKFields fs
end

end Rtcg.Spec
