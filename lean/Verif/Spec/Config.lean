import Mathlib.Data.List.Forall2
import Verif.Spec.Text
import Verif.Spec.Xml
import Verif.Spec.Flags

/-
The configuration of rtcg-gen as an XML tree: which tree says which configuration.  Order matters only among elements with the same
name; where one thing is given more than once, the last one counts; what has no meaning is left out.
-/

namespace Rtcg.Spec.ConfigXml

open Rtcg

/-- An element without its name: attributes and children. -/
abbrev Body := List (Str × Str) × List Xml

/-- The elements with a name among children, in order. -/
def named (n : Str) (kids : List Xml) : List Body :=
  kids.filterMap fun
    | .text _ => none
    | .elem m attrs inner => if m = n then some (attrs, inner) else none

/-- The text directly in an element. -/
def textIn (b : Body) : Str :=
  (b.2.filterMap fun
    | .text s => some s
    | .elem _ _ _ => none).flatten

/-- The values of the attributes with a name, in order. -/
def values (n : Str) (attrs : List (Str × Str)) : List Str := (attrs.filter fun a => a.1 = n).map (·.2)

/-- The last one, or nothing. -/
def last (l : List Str) : Str := l.getLastD []

/-- The texts for true and false; no text at all is false. -/
def XmlBool (s : Str) (b : Bool) : Prop := (s = [] ∧ b = false) ∨ ∃ t, Stripped s t ∧ BoolText t b

/-- The texts for an integer; no text at all is 0. -/
def XmlInt (s : Str) (i : Int) : Prop := (s = [] ∧ i = 0) ∨ ∃ t, Stripped s t ∧ DenotesInt t i ∧ -2 ^ 63 ≤ i ∧ i < 2 ^ 63

/-- The texts for a variant, in any mixture of cases. -/
def XmlVariant (s : Str) (v : Variant) : Prop :=
  (SameIgnoringCase s c!"animate" ∧ v = .animate) ∨ (SameIgnoringCase s c!"ros" ∧ v = .ros)

/-- All of the texts must be fit; the last one counts. -/
def LastOf {α : Type} (R : Str → α → Prop) (d : α) (texts : List Str) (a : α) : Prop :=
  ∃ as, List.Forall₂ R texts as ∧ a = as.getLastD d

/-- `<include src="…" system="…"/>` -/
structure IncludeIs (b : Body) (i : CppConfig.Include) : Prop where
  src : i.src = last (values c!"src" b.1)
  system : LastOf XmlBool false (values c!"system" b.1) i.isSystem

/-- `<channel name="…" type="…"/>` -/
structure ChannelIs (b : Body) (c : CppConfig.Channel) : Prop where
  name : c.name = last (values c!"name" b.1)
  type : c.type = last (values c!"type" b.1)

/-- `<package format="…">…</package>`, several of them making one. -/
structure PackageIs (bs : List Body) (p : Catkin.Package) : Prop where
  format : LastOf XmlInt 0 (values c!"format" (bs.flatMap (·.1))) p.format
  name : p.name = last ((named c!"name" (bs.flatMap (·.2))).map textIn)
  version : p.version = last ((named c!"version" (bs.flatMap (·.2))).map textIn)
  description : p.description = last ((named c!"description" (bs.flatMap (·.2))).map textIn)
  maintainer : p.maintainer.name = last ((named c!"maintainer" (bs.flatMap (·.2))).map textIn)
  email : p.maintainer.email = last (values c!"email" ((named c!"maintainer" (bs.flatMap (·.2))).flatMap (·.1)))
  license : p.license = last ((named c!"license" (bs.flatMap (·.2))).map textIn)
  buildtool : p.buildtoolDepends = (named c!"buildtool_depend" (bs.flatMap (·.2))).map textIn
  depends : p.depends = (named c!"depend" (bs.flatMap (·.2))).map textIn

/-- `<catkin>…</catkin>`, several of them making one: whether there is a package, and which. -/
def CatkinIs (bs : List Body) (k : Option Catkin.Package) : Prop :=
  match k with
  | none => named c!"package" (bs.flatMap (·.2)) = []
  | some p => named c!"package" (bs.flatMap (·.2)) ≠ [] ∧ PackageIs (named c!"package" (bs.flatMap (·.2))) p

/-- `<cpp variant="…">…</cpp>` -/
structure CppIs (b : Body) (c : CppConfig.Config) : Prop where
  variant : LastOf XmlVariant .animate (values c!"variant" b.1) c.variant
  includes : List.Forall₂ IncludeIs (named c!"include" b.2) c.includes
  channels : List.Forall₂ ChannelIs (named c!"channel" b.2) c.channels
  makefile : c.makefile = true ↔ named c!"makefile" b.2 ≠ []
  catkin : match c.catkin with
    | none => named c!"catkin" b.2 = []
    | some k => named c!"catkin" b.2 ≠ [] ∧ CatkinIs (named c!"catkin" b.2) k

/-- `<rtcg-gen>…</rtcg-gen>` -/
structure ConfigIs (x : Xml) (cfg : GenConfig) : Prop where
  root : ∃ attrs kids, x = .elem c!"rtcg-gen" attrs kids ∧
    List.Forall₂ CppIs (named c!"cpp" kids) cfg.cpps ∧
    cfg.directory = last ((named c!"directory" kids).map textIn)

/-- A text is a document that says a configuration. -/
def Says (N : XmlNames) (text : Str) (cfg : GenConfig) : Prop := ∃ x, XmlText.Document N text x ∧ ConfigIs x cfg

/-! ### what makes no difference -/

/-- The name of a child, if it is an element. -/
def nameOf : Xml → Option Str
  | .text _ => none
  | .elem n _ _ => some n

/-- A change of no consequence among children when only some names are known: text or an unknown element put in, or two neighbours with
different names swapped. -/
inductive Shuffle (known : List Str) : List Xml → List Xml → Prop
  | put {a b : List Xml} {x : Xml} (h : ∀ n, nameOf x = some n → n ∉ known) : Shuffle known (a ++ b) (a ++ x :: b)
  | swap {a b : List Xml} {x y : Xml} (h : nameOf x ≠ nameOf y) : Shuffle known (a ++ x :: y :: b) (a ++ y :: x :: b)

/-- A change of no consequence among attributes: an unknown one put in, or two neighbours with different names swapped. -/
inductive AttrShuffle (known : List Str) : List (Str × Str) → List (Str × Str) → Prop
  | put {a b : List (Str × Str)} {n v : Str} (h : n ∉ known) : AttrShuffle known (a ++ b) (a ++ (n, v) :: b)
  | swap {a b : List (Str × Str)} {n v m w : Str} (h : n ≠ m) : AttrShuffle known (a ++ (n, v) :: (m, w) :: b) (a ++ (m, w) :: (n, v) :: b)

/-- A change of no consequence in an element of which only some attributes and children are known, and, for some of these, in
one of them. -/
inductive Change (attrs kids : List Str) (inner : Str → Body → Body → Prop) : Body → Body → Prop
  | attrs {as as' : List (Str × Str)} {ks : List Xml} (h : AttrShuffle attrs as as') : Change attrs kids inner (as, ks) (as', ks)
  | kids {as : List (Str × Str)} {ks ks' : List Xml} (h : Shuffle kids ks ks') : Change attrs kids inner (as, ks) (as, ks')
  | inner {as : List (Str × Str)} {a b : List Xml} {n : Str} {x y : Body} (hn : n ∈ kids) (h : inner n x y) :
      Change attrs kids inner (as, a ++ .elem n x.1 x.2 :: b) (as, a ++ .elem n y.1 y.2 :: b)

/-- Elements with only text in them: any element may be put in, and text may be cut in two. -/
inductive TextChange (attrs : List Str) : Body → Body → Prop
  | attrs {as as' : List (Str × Str)} {ks : List Xml} (h : AttrShuffle attrs as as') : TextChange attrs (as, ks) (as', ks)
  | put {as : List (Str × Str)} {a b : List Xml} {n : Str} {x : Body} : TextChange attrs (as, a ++ b) (as, a ++ .elem n x.1 x.2 :: b)
  | cut {as : List (Str × Str)} {a b : List Xml} {s t : Str} :
      TextChange attrs (as, a ++ .text (s ++ t) :: b) (as, a ++ .text s :: .text t :: b)

/-- Changes of no consequence in what is in a package. -/
def packageInner (n : Str) : Body → Body → Prop := TextChange (if n = c!"maintainer" then [c!"email"] else [])

/-- Changes of no consequence in a package. -/
def PackageChange : Body → Body → Prop :=
  Change [c!"format"] [c!"name", c!"version", c!"description", c!"maintainer", c!"license", c!"buildtool_depend", c!"depend"] packageInner

/-- … in a Catkin configuration. -/
def CatkinChange : Body → Body → Prop := Change [] [c!"package"] fun _ => PackageChange

/-- … in what is in a C++ configuration. -/
def cppInner (n : Str) : Body → Body → Prop :=
  if n = c!"catkin" then CatkinChange
  else if n = c!"include" then Change [c!"src", c!"system"] [] fun _ _ _ => False
  else if n = c!"channel" then Change [c!"name", c!"type"] [] fun _ _ _ => False
  else fun _ _ => True

/-- … in a C++ configuration. -/
def CppChange : Body → Body → Prop := Change [c!"variant"] [c!"include", c!"channel", c!"makefile", c!"catkin"] cppInner

/-- … in a configuration. -/
def ConfigChange : Body → Body → Prop :=
  Change [] [c!"cpp", c!"directory"] fun n => if n = c!"cpp" then CppChange else TextChange []

/-- What is around the content of an element somewhere in an element: the texts before and after it, and the tree it is in. -/
inductive Around (N : XmlNames) : Str → Str → (List Xml → Xml) → Prop
  | here {t name l w : Str} {as : List (Str × Str)} (ht : XmlText.Tag N t name as) (hl : XmlText.LocalPart name l) (hw : XmlText.Blanks w) :
      Around N ('<' :: (t ++ ['>'])) (c!"</" ++ name ++ w ++ ['>']) (fun ks => .elem l as ks)
  | deeper {t name l w a b pre post : Str} {as : List (Str × Str)} {k₁ k₂ : List Xml} {g : List Xml → Xml} (ht : XmlText.Tag N t name as)
      (hl : XmlText.LocalPart name l) (hw : XmlText.Blanks w) (ha : XmlText.Content N a k₁) (hb : XmlText.Content N b k₂)
      (h : Around N pre post g) :
      Around N ('<' :: (t ++ '>' :: (a ++ pre))) (post ++ b ++ c!"</" ++ name ++ w ++ ['>']) (fun ks => .elem l as (k₁ ++ g ks :: k₂))

/-! ### what can be said in XML -/

/-- The texts in a package. -/
def packageTexts (p : Catkin.Package) : List Str :=
  [p.name, p.version, p.description, p.maintainer.name, p.maintainer.email, p.license] ++ p.buildtoolDepends ++ p.depends

/-- A package with the characters that no document may have replaced. -/
def fitPackage (p : Catkin.Package) : Catkin.Package where
  format := p.format
  name := XmlText.fit p.name
  version := XmlText.fit p.version
  description := XmlText.fit p.description
  maintainer := { name := XmlText.fit p.maintainer.name, email := XmlText.fit p.maintainer.email }
  license := XmlText.fit p.license
  buildtoolDepends := p.buildtoolDepends.map XmlText.fit
  depends := p.depends.map XmlText.fit

/-- A package of texts that a document may have, with a format that is a 64-bit number. -/
structure PackageFits (p : Catkin.Package) : Prop where
  lo : -2 ^ 63 ≤ p.format
  hi : p.format < 2 ^ 63
  texts : ∀ s ∈ packageTexts p, ∀ c ∈ s, XmlText.XmlChar c

/-- The same for a C++ configuration, with a variant that there is. -/
structure CppFits (c : CppConfig.Config) : Prop where
  variant : c.variant = .animate ∨ c.variant = .ros
  includes : ∀ i ∈ c.includes, ∀ x ∈ i.src, XmlText.XmlChar x
  channels : ∀ i ∈ c.channels, (∀ x ∈ i.name, XmlText.XmlChar x) ∧ ∀ x ∈ i.type, XmlText.XmlChar x
  catkin : ∀ p, c.catkin = some (some p) → PackageFits p

/-- The same for a configuration. -/
structure ConfigFits (cfg : GenConfig) : Prop where
  cpps : ∀ c ∈ cfg.cpps, CppFits c
  directory : ∀ x ∈ cfg.directory, XmlText.XmlChar x

end Rtcg.Spec.ConfigXml
