import Verif.Model.Xml

/-
XML as text, after the W3C recommendation (XML 1.0, and Namespaces in XML for names): which texts stand for which trees.  Where
encoding/xml takes more than the recommendation does, it is said.
-/

namespace Rtcg.Spec.XmlText

open Rtcg

/-- `Char` of XML 1.0: the characters a document may have. -/
def XmlChar (c : Char) : Prop :=
  c ∈ ['\t', '\n', '\r'] ∨ (0x20 ≤ c.toNat ∧ c.toNat ≤ 0xD7FF) ∨ (0xE000 ≤ c.toNat ∧ c.toNat ≤ 0xFFFD) ∨ 0x10000 ≤ c.toNat

instance (c : Char) : Decidable (XmlChar c) := inferInstanceAs (Decidable (_ ∨ _))

/-- A text with the replacement character for each character that no document may have. -/
def fit (s : Str) : Str := s.map fun c => if XmlChar c then c else Char.ofNat 0xFFFD

/-- White space, possibly none. -/
def Blanks (s : Str) : Prop := ∀ c ∈ s, c ∈ [' ', '\t', '\n', '\r']

/-- `t` occurs in `s`. -/
def Occurs (t s : Str) : Prop := ∃ a b, s = a ++ t ++ b

/-! ### names -/

/-- A character that a name may begin with. -/
def NameStart (N : XmlNames) (c : Char) : Prop :=
  ('A' ≤ c ∧ c ≤ 'Z') ∨ ('a' ≤ c ∧ c ≤ 'z') ∨ c = '_' ∨ c = ':' ∨ (128 ≤ c.toNat ∧ N.start c = true)

/-- Any other character of a name. -/
def NameOther (N : XmlNames) (c : Char) : Prop :=
  ('0' ≤ c ∧ c ≤ '9') ∨ c = '-' ∨ c = '.' ∨ (128 ≤ c.toNat ∧ N.other c = true)

/-- A name. -/
def Name (N : XmlNames) (t : Str) : Prop := ∃ c r, t = c :: r ∧ NameStart N c ∧ ∀ x ∈ r, NameStart N x ∨ NameOther N x

/-- A character that could go on with a name, or that is not ASCII. -/
def NameChar (c : Char) : Prop :=
  ('A' ≤ c ∧ c ≤ 'Z') ∨ ('a' ≤ c ∧ c ≤ 'z') ∨ ('0' ≤ c ∧ c ≤ '9') ∨ c ∈ ['_', ':', '-', '.'] ∨ 128 ≤ c.toNat

/-- The text does not begin with such a character. -/
def NotName (t : Str) : Prop := ∀ c r, t = c :: r → ¬ NameChar c

/-- A name with at most one colon. -/
def QName (N : XmlNames) (t : Str) : Prop := Name N t ∧ ∀ a b c, t ≠ a ++ ':' :: b ++ ':' :: c

/-- The local part of a name: what comes after `prefix:`, or all of it if there is no prefix. -/
def LocalPart (t l : Str) : Prop :=
  (∃ p, t = p ++ ':' :: l ∧ p ≠ [] ∧ l ≠ [] ∧ ':' ∉ p) ∨ (l = t ∧ ¬ ∃ p q, t = p ++ ':' :: q ∧ p ≠ [] ∧ q ≠ [] ∧ ':' ∉ p)

/-! ### text -/

/-- The predefined entities. -/
def predefined : List (Str × Char) := [(c!"lt", '<'), (c!"gt", '>'), (c!"amp", '&'), (c!"apos", '\''), (c!"quot", '"')]

/-- The digits and what they stand for. -/
def digits : List (Char × Nat) :=
  [('0', 0), ('1', 1), ('2', 2), ('3', 3), ('4', 4), ('5', 5), ('6', 6), ('7', 7), ('8', 8), ('9', 9),
   ('a', 10), ('b', 11), ('c', 12), ('d', 13), ('e', 14), ('f', 15), ('A', 10), ('B', 11), ('C', 12), ('D', 13), ('E', 14), ('F', 15)]

/-- A text of one or more digits in a base, and its value. -/
inductive Numeral (base : Nat) : Str → Nat → Prop
  | one {c : Char} {d : Nat} (h : (c, d) ∈ digits) (hd : d < base) : Numeral base [c] d
  | more {t : Str} {n : Nat} {c : Char} {d : Nat} (ht : Numeral base t n) (h : (c, d) ∈ digits) (hd : d < base) :
      Numeral base (t ++ [c]) (n * base + d)

/-- The character with a number.  The recommendation does not allow surrogates; encoding/xml takes them for the replacement
character. -/
def Code (n : Nat) (c : Char) : Prop := c.toNat = n ∨ (0xD800 ≤ n ∧ n < 0xE000 ∧ c = Char.ofNat 0xFFFD)

/-- A reference, and the character it stands for. -/
inductive Reference : Str → Char → Prop
  | named {name : Str} {c : Char} (h : (name, c) ∈ predefined) : Reference ('&' :: (name ++ [';'])) c
  | decimal {ds : Str} {n : Nat} {c : Char} (hd : Numeral 10 ds n) (hc : Code n c) : Reference ('&' :: '#' :: (ds ++ [';'])) c
  | hex {ds : Str} {n : Nat} {c : Char} (hd : Numeral 16 ds n) (hc : Code n c) : Reference ('&' :: '#' :: 'x' :: (ds ++ [';'])) c

/-- Text, and the characters it stands for; `plain` are the characters that stand for themselves, `refs` whether there are references.
A line may end with a carriage return, or a carriage return and a line feed, for a line feed. -/
inductive Text (plain : Char → Prop) (refs : Prop) : Str → Str → Prop
  | nil : Text plain refs [] []
  | char {c : Char} {t s : Str} (hc : plain c) (hx : XmlChar c) (hr : c ≠ '\r') (h : Text plain refs t s) : Text plain refs (c :: t) (c :: s)
  | ref {r t s : Str} {c : Char} (hrefs : refs) (hr : Reference r c) (hx : XmlChar c) (h : Text plain refs t s) :
      Text plain refs (r ++ t) (c :: s)
  | crlf {t s : Str} (h : Text plain refs t s) : Text plain refs ('\r' :: '\n' :: t) ('\n' :: s)
  | cr {t s : Str} (ht : ∀ q, t ≠ '\n' :: q) (h : Text plain refs t s) : Text plain refs ('\r' :: t) ('\n' :: s)

/-- `CharData` with references: the text between markup. -/
def CharData (t s : Str) : Prop := Text (fun c => c ≠ '<' ∧ c ≠ '&') True t s ∧ ¬ Occurs c!"]]>" t

/-- `CDSect` -/
def CData (t s : Str) : Prop :=
  ∃ body, t = c!"<![CDATA[" ++ body ++ c!"]]>" ∧ Text (fun _ => True) False body s ∧ ¬ Occurs c!"]]>" body

/-- `AttValue`.  encoding/xml does not replace white space in it by blanks. -/
def AttValue (t s : Str) : Prop :=
  ∃ q body, q ∈ ['"', '\''] ∧ t = q :: (body ++ [q]) ∧ Text (fun c => c ≠ '<' ∧ c ≠ '&' ∧ c ≠ q) True body s

/-! ### markup that stands for nothing -/

/-- The value of a parameter of the XML declaration, at the first place where its name and `=` occur. -/
def Parameter (name content v : Str) : Prop :=
  ∃ a q b, content = a ++ name ++ '=' :: q :: (v ++ q :: b) ∧ q ∈ ['"', '\''] ∧ q ∉ v ∧
    ∀ a' b', content = a' ++ name ++ '=' :: b' → a.length ≤ a'.length

/-- The XML declaration says version 1.0 and UTF-8, if it says anything. -/
def Declaration (content : Str) : Prop :=
  (∀ v, Parameter c!"version" content v → v = [] ∨ v = c!"1.0") ∧
  (∀ v, Parameter c!"encoding" content v → v = [] ∨ v.map Char.toLower = c!"utf-8")

/-- A processing instruction, or the XML declaration, which encoding/xml takes anywhere. -/
def ProcInst (N : XmlNames) (t : Str) : Prop :=
  ∃ target w content, t = c!"<?" ++ target ++ w ++ content ++ c!"?>" ∧ Name N target ∧ NotName (w ++ content) ∧ Blanks w ∧
    (∀ c r, content = c :: r → ¬ Blanks [c]) ∧ ¬ Occurs c!"?>" content ∧ (target = c!"xml" → Declaration content)

/-- A comment. -/
def Comment (t : Str) : Prop := ∃ body, t = c!"<!--" ++ body ++ c!"-->" ∧ ¬ Occurs c!"--" (body ++ ['-'])

/-- The inside of a declaration such as a document type: quoted texts, comments and nested declarations.  encoding/xml asks for no more
than that. -/
inductive Inside : Str → Prop
  | nil : Inside []
  | char {c : Char} {t : Str} (hc : c ∉ ['<', '>', '"', '\'']) (h : Inside t) : Inside (c :: t)
  | quoted {q : Char} {s t : Str} (hq : q ∈ ['"', '\'']) (hs : q ∉ s) (h : Inside t) : Inside (q :: (s ++ q :: t))
  | comment {s t : Str} (hs : ¬ Occurs c!"-->" (s ++ c!"--")) (h : Inside t) :
      Inside (c!"<!--" ++ (s ++ c!"-->" ++ t))
  | nested {s t : Str} (hc : ∀ r, s ≠ c!"!--" ++ r) (hs : Inside s) (h : Inside t) : Inside ('<' :: (s ++ '>' :: t))

/-- A declaration.  encoding/xml takes any, anywhere. -/
def Directive (t : Str) : Prop := ∃ c body, t = c!"<!" ++ c :: (body ++ ['>']) ∧ c ≠ '-' ∧ c ≠ '[' ∧ Inside body

/-- Markup that stands for nothing. -/
def Misc (N : XmlNames) (t : Str) : Prop := ProcInst N t ∨ Comment t ∨ Directive t

/-! ### elements -/

/-- The attributes of a start tag: local parts and values.  encoding/xml does not ask for white space between them, and takes two with
the same name. -/
inductive Attributes (N : XmlNames) : Str → List (Str × Str) → Prop
  | nil : Attributes N [] []
  | cons {w n l w1 w2 tv v t : Str} {as : List (Str × Str)} (hw : Blanks w) (hn : QName N n) (hl : LocalPart n l) (hw1 : Blanks w1)
      (hw2 : Blanks w2) (hv : AttValue tv v) (h : Attributes N t as) :
      Attributes N (w ++ n ++ w1 ++ '=' :: (w2 ++ tv) ++ t) ((l, v) :: as)

/-- The inside of a start tag: a name, attributes, and white space at the end. -/
def Tag (N : XmlNames) (t name : Str) (as : List (Str × Str)) : Prop :=
  ∃ ta w, t = name ++ ta ++ w ∧ QName N name ∧ Attributes N ta as ∧ Blanks w ∧ NotName (ta ++ w)

mutual
/-- An element. -/
inductive Element (N : XmlNames) : Str → Xml → Prop
  | empty {t name l : Str} {as : List (Str × Str)} (ht : Tag N t name as) (hl : LocalPart name l) :
      Element N ('<' :: (t ++ c!"/>")) (.elem l as [])
  | full {t name l tc w : Str} {as : List (Str × Str)} {kids : List Xml} (ht : Tag N t name as) (hl : LocalPart name l)
      (hc : Content N tc kids) (hw : Blanks w) :
      Element N ('<' :: (t ++ '>' :: (tc ++ c!"</" ++ name ++ w ++ ['>']))) (.elem l as kids)
/-- The content of an element: each maximal text and each CDATA section is a text of its own. -/
inductive Content (N : XmlNames) : Str → List Xml → Prop
  | nil : Content N [] []
  | text {t s r : Str} {kids : List Xml} (ht : CharData t s) (hne : t ≠ []) (hr : r = [] ∨ ∃ q, r = '<' :: q) (h : Content N r kids) :
      Content N (t ++ r) (.text s :: kids)
  | cdata {t s r : Str} {kids : List Xml} (ht : CData t s) (h : Content N r kids) : Content N (t ++ r) (.text s :: kids)
  | misc {t r : Str} {kids : List Xml} (ht : Misc N t) (h : Content N r kids) : Content N (t ++ r) kids
  | element {t r : Str} {x : Xml} {kids : List Xml} (ht : Element N t x) (h : Content N r kids) : Content N (t ++ r) (x :: kids)
end

/-- What may come before the first element.  The recommendation allows no text but white space, and no CDATA section. -/
inductive Prolog (N : XmlNames) : Str → Prop
  | nil : Prolog N []
  | text {t s r : Str} (ht : CharData t s) (hne : t ≠ []) (hr : r = [] ∨ ∃ q, r = '<' :: q) (h : Prolog N r) : Prolog N (t ++ r)
  | cdata {t s r : Str} (ht : CData t s) (h : Prolog N r) : Prolog N (t ++ r)
  | misc {t r : Str} (ht : Misc N t) (h : Prolog N r) : Prolog N (t ++ r)

/-- A document with its root element.  encoding/xml does not look at what comes after the root element. -/
def Document (N : XmlNames) (s : Str) (x : Xml) : Prop := ∃ p t r, s = p ++ t ++ r ∧ Prolog N p ∧ Element N t x

end Rtcg.Spec.XmlText
