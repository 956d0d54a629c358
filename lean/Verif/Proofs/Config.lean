import Verif.Spec.Config
import Verif.Proofs.Text
import Verif.Props.Lang
import Verif.Proofs.Xml

/-
Decoding gives exactly the configuration that the tree says.
-/

namespace Rtcg.ConfigProofs

open Rtcg Rtcg.Xml Rtcg.Spec Rtcg.Spec.ConfigXml

/-! ### the parts of a tree -/

theorem named_nil (n : Str) : named n [] = [] := rfl

theorem named_text (n s : Str) (kids : List Xml) : named n (.text s :: kids) = named n kids := rfl

theorem named_elem (n m : Str) (attrs : List (Str × Str)) (inner kids : List Xml) :
    named n (.elem m attrs inner :: kids) = if m = n then (attrs, inner) :: named n kids else named n kids := by
  unfold named
  rw [List.filterMap_cons]
  by_cases h : m = n <;> simp [h]

theorem named_append (n : Str) (a b : List Xml) : named n (a ++ b) = named n a ++ named n b := List.filterMap_append

theorem data_eq (attrs : List (Str × Str)) (kids : List Xml) : data kids = textIn (attrs, kids) := by
  unfold data textIn
  induction kids with
  | nil => rfl
  | cons x kids ih =>
    cases x <;> simp only [List.flatMap_cons, List.filterMap_cons, List.flatten_cons, List.nil_append] at ih ⊢
    · rw [ih]
    · exact ih

theorem values_nil (n : Str) : values n [] = [] := rfl

theorem values_cons (n : Str) (a : Str × Str) (attrs : List (Str × Str)) :
    values n (a :: attrs) = if a.1 = n then a.2 :: values n attrs else values n attrs := by
  unfold values
  rw [List.filter_cons]
  by_cases h : a.1 = n <;> simp [h]

theorem values_append (n : Str) (a b : List (Str × Str)) : values n (a ++ b) = values n a ++ values n b := by
  unfold values; rw [List.filter_append, List.map_append]

/-! ### texts of values -/

theorem decodeBool_iff (s : Str) (b : Bool) : decodeBool s = .ok b ↔ XmlBool s b := by
  unfold decodeBool XmlBool
  by_cases hs : s = []
  · subst hs
    rw [if_pos rfl]
    constructor
    · intro h; cases h; exact .inl ⟨rfl, rfl⟩
    · rintro (⟨_, rfl⟩ | ⟨t, ht, hb⟩)
      · rfl
      · rw [← trimSpace_eq_iff] at ht
        subst ht
        cases b
        · rfl
        · exact absurd (show ([] : Str) ∈ [c!"1", c!"t", c!"T", c!"TRUE", c!"true", c!"True"] from hb) (by decide)
  · rw [if_neg hs]
    have hst : ∀ t, Stripped s t ↔ t = trimSpace s := fun t => by rw [← trimSpace_eq_iff]; exact eq_comm
    simp only [hst, exists_eq_left, hs, false_and, false_or]
    unfold BoolText
    generalize trimSpace s = t
    by_cases h1 : t ∈ [c!"1", c!"t", c!"T", c!"TRUE", c!"true", c!"True"]
    · rw [if_pos h1]
      cases b
      · simp only [Bool.false_eq_true, if_false]
        constructor
        · intro h; cases h
        · revert h1
          generalize t = u
          intro h1 h2
          exfalso
          revert h2
          revert u
          decide +kernel
      · simp [h1]
    · rw [if_neg h1]
      cases b
      · simp only [Bool.false_eq_true, if_false]
        split
        · rename_i h; simp [h]
        · rename_i h
          constructor
          · intro h; cases h
          · intro h'; exact absurd h' h
      · simp only [if_true]
        constructor
        · split <;> intro h <;> cases h
        · intro h; exact absurd h h1

theorem denotesInt_bounds {s : Str} {i : Int64} (_ : DenotesInt s i.toInt) : -2 ^ 63 ≤ i.toInt ∧ i.toInt < 2 ^ 63 :=
  ⟨Int64.le_toInt i, Int64.toInt_lt i⟩

theorem decodeInt_iff (s : Str) (i : Int) : decodeInt s = .ok i ↔ XmlInt s i := by
  unfold decodeInt XmlInt
  have hst : ∀ t, Stripped s t ↔ t = trimSpace s := fun t => by rw [← trimSpace_eq_iff]; exact eq_comm
  simp only [hst, exists_eq_left]
  by_cases hs : s = []
  · subst hs
    rw [if_pos rfl]
    constructor
    · intro h; cases h; exact .inl ⟨rfl, rfl⟩
    · rintro (⟨_, rfl⟩ | ⟨⟨sign, ds, h, hne, _⟩, _⟩)
      · rfl
      · have h : ([] : Str) = sign ++ ds := h
        simp at h
        exact absurd h.2 hne
  · rw [if_neg hs]
    simp only [hs, false_and, false_or]
    generalize trimSpace s = t
    cases hp : parseInt t with
    | none =>
      constructor
      · intro h; cases h
      · rintro ⟨h, hb⟩
        exact absurd ⟨i, h, hb⟩ ((parseInt_eq_none_iff t).1 hp)
    | some j =>
      have hd := (parseInt_eq_some_iff t j).1 hp
      constructor
      · intro h; cases h; exact ⟨hd, denotesInt_bounds hd⟩
      · rintro ⟨h, hlo, hhi⟩
        have : j = Int64.ofInt i := by
          have := (parseInt_eq_some_iff t (Int64.ofInt i)).2 (by rw [Int64.toInt_ofInt_of_le hlo hhi]; exact h)
          rw [hp] at this
          cases this; rfl
        subst this
        simp only
        rw [Int64.toInt_ofInt_of_le hlo hhi]

theorem variant_iff (s : Str) (v : Variant) : Variant.parse s = .ok v ↔ XmlVariant s v := by
  rw [C01_variant.accepts]
  unfold XmlVariant variantMembers
  constructor
  · rintro ⟨name, h, hs⟩
    rcases List.mem_cons.1 h with h | h
    · cases h; exact .inl ⟨hs, rfl⟩
    · cases List.mem_singleton.1 h; exact .inr ⟨hs, rfl⟩
  · rintro (⟨h, rfl⟩ | ⟨h, rfl⟩)
    · exact ⟨_, List.mem_cons_self, h⟩
    · exact ⟨_, List.mem_cons_of_mem _ List.mem_cons_self, h⟩

/-! ### the last one -/

theorem lastOf_nil {α : Type} {R : Str → α → Prop} {d a : α} : LastOf R d [] a ↔ a = d := by
  constructor
  · rintro ⟨as, h, rfl⟩; cases h; rfl
  · rintro rfl; exact ⟨[], .nil, rfl⟩

theorem lastOf_cons {α : Type} {R : Str → α → Prop} {d a : α} {t : Str} {ts : List Str} :
    LastOf R d (t :: ts) a ↔ ∃ x, R t x ∧ LastOf R x ts a := by
  constructor
  · rintro ⟨as, h, rfl⟩
    cases h with
    | cons h1 h2 => exact ⟨_, h1, _, h2, List.getLastD_cons⟩
  · rintro ⟨x, h1, as, h2, rfl⟩
    exact ⟨x :: as, .cons h1 h2, List.getLastD_cons.symm⟩

theorem lastOf_append {α : Type} {R : Str → α → Prop} {d a : α} {ts us : List Str} :
    LastOf R d (ts ++ us) a ↔ ∃ x, LastOf R d ts x ∧ LastOf R x us a := by
  induction ts generalizing d with
  | nil => simp [lastOf_nil]
  | cons t ts ih =>
    rw [List.cons_append, lastOf_cons]
    simp only [lastOf_cons, ih]
    constructor
    · rintro ⟨x, h1, y, h2, h3⟩; exact ⟨y, ⟨x, h1, h2⟩, h3⟩
    · rintro ⟨y, ⟨x, h1, h2⟩, h3⟩; exact ⟨x, h1, y, h2, h3⟩

theorem getLastD_append {α : Type} (l m : List α) (d : α) : (l ++ m).getLastD d = m.getLastD (l.getLastD d) := by
  induction l generalizing d with
  | nil => rfl
  | cons a l ih => rw [List.cons_append, List.getLastD_cons, List.getLastD_cons, ih]

/-! ### includes and channels -/

theorem each_include (attrs : List (Str × Str)) (i j : CppConfig.Include) : each includeAttr i attrs = .ok j ↔
    j.src = (values c!"src" attrs).getLastD i.src ∧ LastOf XmlBool i.isSystem (values c!"system" attrs) j.isSystem := by
  induction attrs generalizing i with
  | nil =>
    simp only [each, values_nil, lastOf_nil, List.getLastD_nil]
    constructor
    · intro h; cases h; exact ⟨rfl, rfl⟩
    · rintro ⟨h1, h2⟩; cases i; cases j; simp only at h1 h2; rw [h1, h2]
  | cons a attrs ih =>
    simp only [each, includeAttr, values_cons]
    by_cases h1 : a.1 = c!"src"
    · rw [if_pos h1, if_pos h1, if_neg (by rw [h1]; decide)]
      simp only [ih, List.getLastD_cons]
    · rw [if_neg h1, if_neg h1]
      by_cases h2 : a.1 = c!"system"
      · rw [if_pos h2, if_pos h2]
        simp only [lastOf_cons, ← decodeBool_iff]
        cases hb : decodeBool a.2 with
        | error e =>
          constructor
          · intro h; cases h
          · rintro ⟨_, x, h, _⟩; cases h
        | ok b =>
          simp only [ih]
          constructor
          · rintro ⟨h, h'⟩; exact ⟨h, b, rfl, h'⟩
          · rintro ⟨h, x, hx, h'⟩; cases hx; exact ⟨h, h'⟩
      · rw [if_neg h2, if_neg h2]
        exact ih i

theorem include_iff (b : Body) (i : CppConfig.Include) : each includeAttr ⟨[], false⟩ b.1 = .ok i ↔ IncludeIs b i := by
  rw [each_include]
  exact ⟨fun ⟨h, h'⟩ => ⟨h, h'⟩, fun ⟨h, h'⟩ => ⟨h, h'⟩⟩

theorem each_channel (attrs : List (Str × Str)) (i j : CppConfig.Channel) : each channelAttr i attrs = .ok j ↔
    j.name = (values c!"name" attrs).getLastD i.name ∧ j.type = (values c!"type" attrs).getLastD i.type := by
  induction attrs generalizing i with
  | nil =>
    simp only [each, values_nil, List.getLastD_nil]
    constructor
    · intro h; cases h; exact ⟨rfl, rfl⟩
    · rintro ⟨h1, h2⟩; cases i; cases j; simp only at h1 h2; rw [h1, h2]
  | cons a attrs ih =>
    simp only [each, channelAttr, values_cons]
    by_cases h1 : a.1 = c!"name"
    · rw [if_pos h1, if_pos h1, if_neg (by rw [h1]; decide)]
      simp only [ih, List.getLastD_cons]
    · rw [if_neg h1, if_neg h1]
      by_cases h2 : a.1 = c!"type"
      · rw [if_pos h2, if_pos h2]
        simp only [ih, List.getLastD_cons]
      · rw [if_neg h2, if_neg h2]
        exact ih i

theorem channel_iff (b : Body) (c : CppConfig.Channel) : each channelAttr ⟨[], []⟩ b.1 = .ok c ↔ ChannelIs b c := by
  rw [each_channel]
  exact ⟨fun ⟨h, h'⟩ => ⟨h, h'⟩, fun ⟨h, h'⟩ => ⟨h, h'⟩⟩

/-! ### packages -/

theorem each_maintainer (attrs : List (Str × Str)) (m : Catkin.Maintainer) :
    each maintainerAttr m attrs = .ok { m with email := (values c!"email" attrs).getLastD m.email } := by
  induction attrs generalizing m with
  | nil => rfl
  | cons a attrs ih =>
    simp only [each, maintainerAttr, values_cons]
    by_cases h1 : a.1 = c!"email"
    · rw [if_pos h1, if_pos h1]
      simp only [ih, List.getLastD_cons]
    · rw [if_neg h1, if_neg h1]
      exact ih m

/-- What a package becomes when more of one is read into it. -/
structure PackageFrom (p : Catkin.Package) (attrs : List (Str × Str)) (kids : List Xml) (q : Catkin.Package) : Prop where
  format : LastOf XmlInt p.format (values c!"format" attrs) q.format
  name : q.name = ((named c!"name" kids).map textIn).getLastD p.name
  version : q.version = ((named c!"version" kids).map textIn).getLastD p.version
  description : q.description = ((named c!"description" kids).map textIn).getLastD p.description
  maintainer : q.maintainer.name = ((named c!"maintainer" kids).map textIn).getLastD p.maintainer.name
  email : q.maintainer.email = (values c!"email" ((named c!"maintainer" kids).flatMap (·.1))).getLastD p.maintainer.email
  license : q.license = ((named c!"license" kids).map textIn).getLastD p.license
  buildtool : q.buildtoolDepends = p.buildtoolDepends ++ (named c!"buildtool_depend" kids).map textIn
  depends : q.depends = p.depends ++ (named c!"depend" kids).map textIn

theorem each_packageAttr (attrs : List (Str × Str)) (p q : Catkin.Package) : each packageAttr p attrs = .ok q ↔
    ∃ f, LastOf XmlInt p.format (values c!"format" attrs) f ∧ q = { p with format := f } := by
  induction attrs generalizing p with
  | nil =>
    simp only [each, values_nil, lastOf_nil, exists_eq_left]
    constructor
    · intro h; cases h; rfl
    · rintro rfl; rfl
  | cons a attrs ih =>
    simp only [each, packageAttr, values_cons]
    by_cases h1 : a.1 = c!"format"
    · rw [if_pos h1, if_pos h1]
      simp only [lastOf_cons, ← decodeInt_iff]
      cases hb : decodeInt a.2 with
      | error e =>
        constructor
        · intro h; cases h
        · rintro ⟨_, ⟨x, h, _⟩, _⟩; cases h
      | ok b =>
        simp only [ih]
        constructor
        · rintro ⟨f, h, h'⟩; exact ⟨f, ⟨b, rfl, h⟩, h'⟩
        · rintro ⟨f, ⟨x, hx, h⟩, h'⟩; cases hx; exact ⟨f, h, h'⟩
    · rw [if_neg h1, if_neg h1]
      exact ih p

/-- The package that more children make. -/
def withKids (p : Catkin.Package) (kids : List Xml) : Catkin.Package where
  format := p.format
  name := ((named c!"name" kids).map textIn).getLastD p.name
  version := ((named c!"version" kids).map textIn).getLastD p.version
  description := ((named c!"description" kids).map textIn).getLastD p.description
  maintainer :=
    { name := ((named c!"maintainer" kids).map textIn).getLastD p.maintainer.name
      email := (values c!"email" ((named c!"maintainer" kids).flatMap (·.1))).getLastD p.maintainer.email }
  license := ((named c!"license" kids).map textIn).getLastD p.license
  buildtoolDepends := p.buildtoolDepends ++ (named c!"buildtool_depend" kids).map textIn
  depends := p.depends ++ (named c!"depend" kids).map textIn

theorem each_packageChild (kids : List Xml) (p : Catkin.Package) : each packageChild p kids = .ok (withKids p kids) := by
  induction kids generalizing p with
  | nil => simp [each, withKids, named_nil, values_nil]
  | cons x kids ih =>
    cases x with
    | text s => simp only [each, packageChild, ih]; rfl
    | elem m attrs inner =>
      simp only [each, packageChild]
      by_cases h1 : m = c!"name"
      · subst h1
        simp [-List.getLastD_eq_getLast?, List.getLastD_cons, ih, withKids, named_elem, data_eq attrs]
      rw [if_neg h1]
      by_cases h2 : m = c!"version"
      · subst h2
        simp [-List.getLastD_eq_getLast?, List.getLastD_cons, ih, withKids, named_elem, data_eq attrs]
      rw [if_neg h2]
      by_cases h3 : m = c!"description"
      · subst h3
        simp [-List.getLastD_eq_getLast?, List.getLastD_cons, ih, withKids, named_elem, data_eq attrs]
      rw [if_neg h3]
      by_cases h4 : m = c!"maintainer"
      · subst h4
        simp [-List.getLastD_eq_getLast?, List.getLastD_cons, ih, withKids, named_elem, data_eq attrs, each_maintainer, values_append, getLastD_append]
      rw [if_neg h4]
      by_cases h5 : m = c!"license"
      · subst h5
        simp [-List.getLastD_eq_getLast?, List.getLastD_cons, ih, withKids, named_elem, data_eq attrs]
      rw [if_neg h5]
      by_cases h6 : m = c!"buildtool_depend"
      · subst h6
        simp [-List.getLastD_eq_getLast?, List.getLastD_cons, ih, withKids, named_elem, data_eq attrs]
      rw [if_neg h6]
      by_cases h7 : m = c!"depend"
      · subst h7
        simp [-List.getLastD_eq_getLast?, List.getLastD_cons, ih, withKids, named_elem, data_eq attrs]
      rw [if_neg h7]
      simp only [ih, withKids, named_elem, if_neg h1, if_neg h2, if_neg h3, if_neg h4, if_neg h5, if_neg h6, if_neg h7]

theorem decodePackage_iff (p q : Catkin.Package) (attrs : List (Str × Str)) (kids : List Xml) :
    decodePackage p attrs kids = .ok q ↔ PackageFrom p attrs kids q := by
  unfold decodePackage
  constructor
  · intro h
    cases ha : each packageAttr p attrs with
    | error e => rw [ha] at h; cases h
    | ok p' =>
      rw [ha] at h
      simp only [each_packageChild] at h
      cases h
      obtain ⟨f, hf, rfl⟩ := (each_packageAttr _ _ _).1 ha
      exact ⟨hf, rfl, rfl, rfl, rfl, rfl, rfl, rfl, rfl⟩
  · intro h
    rw [(each_packageAttr attrs p { p with format := q.format }).2 ⟨_, h.format, rfl⟩]
    simp only [each_packageChild]
    obtain ⟨f, n, v, d, ⟨mn, me⟩, l, bd, dd⟩ := q
    obtain ⟨h0, h1, h2, h3, h4, h5, h6, h7, h8⟩ := h
    simp only at h1 h2 h3 h4 h5 h6 h7 h8
    simp [withKids, h1, h2, h3, h4, h5, h6, h7, h8]

theorem packageFrom_append {p r : Catkin.Package} {a1 a2 : List (Str × Str)} {k1 k2 : List Xml} :
    PackageFrom p (a1 ++ a2) (k1 ++ k2) r ↔ ∃ q, PackageFrom p a1 k1 q ∧ PackageFrom q a2 k2 r := by
  constructor
  · intro h
    obtain ⟨h0, h1, h2, h3, h4, h5, h6, h7, h8⟩ := h
    rw [values_append, lastOf_append] at h0
    obtain ⟨f, h0, h0'⟩ := h0
    simp only [named_append, List.map_append, List.flatMap_append, values_append, getLastD_append] at h1 h2 h3 h4 h5 h6 h7 h8
    refine ⟨{ withKids p k1 with format := f }, ⟨h0, rfl, rfl, rfl, rfl, rfl, rfl, rfl, rfl⟩, ⟨h0', h1, h2, h3, h4, h5, h6, ?_, ?_⟩⟩
    · rw [h7]; simp [withKids]
    · rw [h8]; simp [withKids]
  · rintro ⟨q, ⟨h0, h1, h2, h3, h4, h5, h6, h7, h8⟩, ⟨g0, g1, g2, g3, g4, g5, g6, g7, g8⟩⟩
    constructor
    · rw [values_append, lastOf_append]; exact ⟨_, h0, g0⟩
    all_goals simp only [named_append, List.map_append, List.flatMap_append, values_append, getLastD_append]
    · rw [g1, h1]
    · rw [g2, h2]
    · rw [g3, h3]
    · rw [g4, h4]
    · rw [g5, h5]
    · rw [g6, h6]
    · rw [g7, h7]; simp
    · rw [g8, h8]; simp

theorem packageFrom_zero {bs : List Body} {p : Catkin.Package} :
    PackageFrom Catkin.Package.zero (bs.flatMap (·.1)) (bs.flatMap (·.2)) p ↔ PackageIs bs p := by
  constructor
  · rintro ⟨h0, h1, h2, h3, h4, h5, h6, h7, h8⟩
    exact ⟨h0, h1, h2, h3, h4, h5, h6, by simpa [Catkin.Package.zero] using h7, by simpa [Catkin.Package.zero] using h8⟩
  · rintro ⟨h0, h1, h2, h3, h4, h5, h6, h7, h8⟩
    exact ⟨h0, h1, h2, h3, h4, h5, h6, by simpa [Catkin.Package.zero] using h7, by simpa [Catkin.Package.zero] using h8⟩

theorem packageIs_unique {bs : List Body} {p q : Catkin.Package} (hp : PackageIs bs p) (hq : PackageIs bs q) : p = q := by
  have h1 := (decodePackage_iff _ _ _ _).2 (packageFrom_zero.2 hp)
  have h2 := (decodePackage_iff _ _ _ _).2 (packageFrom_zero.2 hq)
  exact Except.ok.inj (h1.symm.trans h2)


/-! ### Catkin -/

/-- What becomes of a Catkin configuration when more package elements are read into it. -/
def CatkinFrom (k : Option Catkin.Package) (bs : List Body) (k' : Option Catkin.Package) : Prop :=
  (bs = [] ∧ k' = k) ∨ (bs ≠ [] ∧ ∃ p, k' = some p ∧
    PackageFrom (k.getD Catkin.Package.zero) (bs.flatMap (·.1)) (bs.flatMap (·.2)) p)

theorem packageFrom_nil (p : Catkin.Package) : PackageFrom p [] [] p :=
  ⟨lastOf_nil.2 rfl, rfl, rfl, rfl, rfl, rfl, rfl, (List.append_nil _).symm, (List.append_nil _).symm⟩

theorem catkinFrom_append {k r : Option Catkin.Package} {b1 b2 : List Body} :
    CatkinFrom k (b1 ++ b2) r ↔ ∃ q, CatkinFrom k b1 q ∧ CatkinFrom q b2 r := by
  unfold CatkinFrom
  by_cases e1 : b1 = []
  · subst e1
    simp
  · by_cases e2 : b2 = []
    · subst e2
      simp [e1]
    · simp only [List.append_eq_nil_iff, e1, e2, false_and, false_or, ne_eq, not_false_eq_true, true_and, List.flatMap_append,
        packageFrom_append]
      constructor
      · rintro ⟨p, rfl, q, h, h'⟩; exact ⟨some q, ⟨q, rfl, h⟩, p, rfl, h'⟩
      · rintro ⟨_, ⟨q, rfl, h⟩, p, rfl, h'⟩; exact ⟨p, rfl, q, h, h'⟩

theorem catkinFrom_single {k r : Option Catkin.Package} {b : Body} :
    CatkinFrom k [b] r ↔ ∃ p, r = some p ∧ decodePackage (k.getD Catkin.Package.zero) b.1 b.2 = .ok p := by
  simp [CatkinFrom, decodePackage_iff]

theorem each_catkinChild (kids : List Xml) (k r : Option Catkin.Package) :
    each catkinChild k kids = .ok r ↔ CatkinFrom k (named c!"package" kids) r := by
  induction kids generalizing k with
  | nil =>
    simp only [each, named_nil]
    constructor
    · intro h; cases h; exact .inl ⟨rfl, rfl⟩
    · rintro (⟨_, rfl⟩ | ⟨h, _⟩)
      · rfl
      · exact absurd rfl h
  | cons x kids ih =>
    cases x with
    | text s => simp only [each, catkinChild, ih, named_text]
    | elem m attrs inner =>
      simp only [each, catkinChild, named_elem]
      by_cases h1 : m = c!"package"
      · rw [if_pos h1, if_pos h1]
        have := @catkinFrom_append k r [(attrs, inner)] (named c!"package" kids)
        rw [List.singleton_append] at this
        rw [this]
        simp only [catkinFrom_single]
        cases hd : decodePackage (k.getD Catkin.Package.zero) attrs inner with
        | error e =>
          constructor
          · intro h; cases h
          · rintro ⟨_, ⟨p, _, h⟩, _⟩; cases h
        | ok p =>
          simp only [ih]
          constructor
          · intro h; exact ⟨some p, ⟨p, rfl, rfl⟩, h⟩
          · rintro ⟨_, ⟨p, rfl, h⟩, h'⟩; cases h; exact h'
      · rw [if_neg h1, if_neg h1]
        exact ih k

theorem catkinFrom_none {bs : List Body} {k : Option Catkin.Package} :
    CatkinFrom none (named c!"package" (bs.flatMap (·.2))) k ↔ CatkinIs bs k := by
  unfold CatkinFrom CatkinIs
  generalize named c!"package" (bs.flatMap (·.2)) = ps
  cases k with
  | none => simp
  | some p =>
    simp only [Option.getD_none, packageFrom_zero]
    constructor
    · rintro (⟨_, h⟩ | ⟨h, q, hq, h'⟩)
      · cases h
      · cases hq; exact ⟨h, h'⟩
    · rintro ⟨h, h'⟩; exact .inr ⟨h, p, rfl, h'⟩

/-! ### C++ -/

theorem each_cppAttr (attrs : List (Str × Str)) (c d : CppConfig.Config) : each cppAttr c attrs = .ok d ↔
    ∃ v, LastOf XmlVariant c.variant (values c!"variant" attrs) v ∧ d = { c with variant := v } := by
  induction attrs generalizing c with
  | nil =>
    simp only [each, values_nil, lastOf_nil, exists_eq_left]
    constructor
    · intro h; cases h; rfl
    · rintro rfl; rfl
  | cons a attrs ih =>
    simp only [each, cppAttr, values_cons]
    by_cases h1 : a.1 = c!"variant"
    · rw [if_pos h1, if_pos h1]
      simp only [lastOf_cons, ← variant_iff]
      cases hb : Variant.parse a.2 with
      | error e =>
        constructor
        · intro h; cases h
        · rintro ⟨_, ⟨x, h, _⟩, _⟩; cases h
      | ok b =>
        simp only [ih]
        constructor
        · rintro ⟨f, h, h'⟩; exact ⟨f, ⟨b, rfl, h⟩, h'⟩
        · rintro ⟨f, ⟨x, hx, h⟩, h'⟩; cases hx; exact ⟨f, h, h'⟩
    · rw [if_neg h1, if_neg h1]
      exact ih c

/-- What becomes of a C++ configuration when more children are read into it. -/
structure CppFrom (c : CppConfig.Config) (kids : List Xml) (d : CppConfig.Config) : Prop where
  variant : d.variant = c.variant
  includes : ∃ is, List.Forall₂ IncludeIs (named c!"include" kids) is ∧ d.includes = c.includes ++ is
  channels : ∃ cs, List.Forall₂ ChannelIs (named c!"channel" kids) cs ∧ d.channels = c.channels ++ cs
  makefile : d.makefile = true ↔ c.makefile = true ∨ named c!"makefile" kids ≠ []
  catkin : (named c!"catkin" kids = [] ∧ d.catkin = c.catkin) ∨ (named c!"catkin" kids ≠ [] ∧ ∃ k, d.catkin = some k ∧
    CatkinFrom (c.catkin.getD none) (named c!"package" ((named c!"catkin" kids).flatMap (·.2))) k)

theorem each_cppChild (kids : List Xml) (c d : CppConfig.Config) : each cppChild c kids = .ok d ↔ CppFrom c kids d := by
  induction kids generalizing c with
  | nil =>
    simp only [each]
    constructor
    · intro h; cases h
      exact ⟨rfl, ⟨[], .nil, by simp⟩, ⟨[], .nil, by simp⟩, by simp [named_nil], .inl ⟨rfl, rfl⟩⟩
    · rintro ⟨h0, ⟨is, h1, h1'⟩, ⟨cs, h2, h2'⟩, h3, h4⟩
      cases h1; cases h2
      obtain ⟨v, i, ch, m, k⟩ := c
      obtain ⟨v', i', ch', m', k'⟩ := d
      simp only [List.append_nil, named_nil, ne_eq, not_true, or_false, true_and, false_and] at h0 h1' h2' h3 h4
      subst h0 h1' h2' h4
      congr
      exact (Bool.eq_iff_iff.2 h3).symm
  | cons x kids ih =>
    cases x with
    | text s =>
      simp only [each, cppChild, ih]
      exact ⟨fun ⟨a, b, c, d, e⟩ => ⟨a, b, c, d, e⟩, fun ⟨a, b, c, d, e⟩ => ⟨a, b, c, d, e⟩⟩
    | elem m attrs inner =>
      simp only [each, cppChild]
      by_cases h1 : m = c!"include"
      · subst h1
        rw [if_pos rfl]
        have e1 : named c!"include" (.elem c!"include" attrs inner :: kids) = (attrs, inner) :: named c!"include" kids := by
          simp [named_elem]
        have e2 : named c!"channel" (.elem c!"include" attrs inner :: kids) = named c!"channel" kids := by simp [named_elem]
        have e3 : named c!"makefile" (.elem c!"include" attrs inner :: kids) = named c!"makefile" kids := by simp [named_elem]
        have e4 : named c!"catkin" (.elem c!"include" attrs inner :: kids) = named c!"catkin" kids := by simp [named_elem]
        cases hi : each includeAttr ⟨[], false⟩ attrs with
        | error e =>
          constructor
          · intro h; cases h
          · rintro ⟨_, ⟨is, h, _⟩, _⟩
            rw [e1] at h
            cases h with
            | cons h _ => rw [← include_iff] at h; simp only [hi] at h; cases h
        | ok i =>
          simp only [ih]
          constructor
          · rintro ⟨h0, ⟨is, hh, hh'⟩, g2, g3, g4⟩
            refine ⟨h0, ⟨i :: is, ?_, by rw [hh']; simp⟩, ?_, ?_, ?_⟩
            · rw [e1]; exact .cons ((include_iff _ _).1 hi) hh
            · rw [e2]; exact g2
            · rw [e3]; exact g3
            · rw [e4]; exact g4
          · rintro ⟨h0, ⟨is, hh, hh'⟩, g2, g3, g4⟩
            rw [e1] at hh
            rw [e2] at g2
            rw [e3] at g3
            rw [e4] at g4
            cases hh with
            | cons h ht =>
              rw [← include_iff] at h
              simp only [hi] at h
              cases h
              exact ⟨h0, ⟨_, ht, by rw [hh']; simp⟩, g2, g3, g4⟩
      rw [if_neg h1]
      by_cases h2 : m = c!"channel"
      · subst h2
        rw [if_pos rfl]
        have e1 : named c!"channel" (.elem c!"channel" attrs inner :: kids) = (attrs, inner) :: named c!"channel" kids := by
          simp [named_elem]
        have e2 : named c!"include" (.elem c!"channel" attrs inner :: kids) = named c!"include" kids := by simp [named_elem]
        have e3 : named c!"makefile" (.elem c!"channel" attrs inner :: kids) = named c!"makefile" kids := by simp [named_elem]
        have e4 : named c!"catkin" (.elem c!"channel" attrs inner :: kids) = named c!"catkin" kids := by simp [named_elem]
        cases hi : each channelAttr ⟨[], []⟩ attrs with
        | error e =>
          constructor
          · intro h; cases h
          · rintro ⟨_, _, ⟨is, h, _⟩, _⟩
            rw [e1] at h
            cases h with
            | cons h _ => rw [← channel_iff] at h; simp only [hi] at h; cases h
        | ok i =>
          simp only [ih]
          constructor
          · rintro ⟨h0, g2, ⟨is, hh, hh'⟩, g3, g4⟩
            refine ⟨h0, ?_, ⟨i :: is, ?_, by rw [hh']; simp⟩, ?_, ?_⟩
            · rw [e2]; exact g2
            · rw [e1]; exact .cons ((channel_iff _ _).1 hi) hh
            · rw [e3]; exact g3
            · rw [e4]; exact g4
          · rintro ⟨h0, g2, ⟨is, hh, hh'⟩, g3, g4⟩
            rw [e1] at hh
            rw [e2] at g2
            rw [e3] at g3
            rw [e4] at g4
            cases hh with
            | cons h ht =>
              rw [← channel_iff] at h
              simp only [hi] at h
              cases h
              exact ⟨h0, g2, ⟨_, ht, by rw [hh']; simp⟩, g3, g4⟩
      rw [if_neg h2]
      by_cases h3 : m = c!"makefile"
      · subst h3
        rw [if_pos rfl]
        have e1 : named c!"makefile" (.elem c!"makefile" attrs inner :: kids) = (attrs, inner) :: named c!"makefile" kids := by
          simp [named_elem]
        have e2 : named c!"include" (.elem c!"makefile" attrs inner :: kids) = named c!"include" kids := by simp [named_elem]
        have e3 : named c!"channel" (.elem c!"makefile" attrs inner :: kids) = named c!"channel" kids := by simp [named_elem]
        have e4 : named c!"catkin" (.elem c!"makefile" attrs inner :: kids) = named c!"catkin" kids := by simp [named_elem]
        simp only [ih]
        constructor
        · rintro ⟨h0, g1, g2, g3, g4⟩
          refine ⟨h0, ?_, ?_, ?_, ?_⟩
          · rw [e2]; exact g1
          · rw [e3]; exact g2
          · rw [e1]; simp at g3 ⊢; exact g3
          · rw [e4]; exact g4
        · rintro ⟨h0, g1, g2, g3, g4⟩
          rw [e2] at g1
          rw [e3] at g2
          rw [e4] at g4
          refine ⟨h0, g1, g2, ?_, g4⟩
          rw [e1] at g3; simp at g3 ⊢; exact g3
      rw [if_neg h3]
      by_cases h4 : m = c!"catkin"
      · subst h4
        rw [if_pos rfl]
        have e1 : named c!"catkin" (.elem c!"catkin" attrs inner :: kids) = (attrs, inner) :: named c!"catkin" kids := by
          simp [named_elem]
        have e2 : named c!"include" (.elem c!"catkin" attrs inner :: kids) = named c!"include" kids := by simp [named_elem]
        have e3 : named c!"channel" (.elem c!"catkin" attrs inner :: kids) = named c!"channel" kids := by simp [named_elem]
        have e4 : named c!"makefile" (.elem c!"catkin" attrs inner :: kids) = named c!"makefile" kids := by simp [named_elem]
        cases hi : each catkinChild (c.catkin.getD none) inner with
        | error e =>
          constructor
          · intro h; cases h
          · rintro ⟨_, _, _, _, g4⟩
            rw [e1] at g4
            rcases g4 with ⟨h, _⟩ | ⟨_, k, _, h⟩
            · cases h
            · rw [List.flatMap_cons, named_append, catkinFrom_append] at h
              obtain ⟨q, h, _⟩ := h
              rw [← each_catkinChild] at h
              simp only [hi] at h; cases h
        | ok i =>
          have hi' := (each_catkinChild _ _ _).1 hi
          simp only [ih]
          constructor
          · rintro ⟨h0, g1, g2, g3, g4⟩
            refine ⟨h0, ?_, ?_, ?_, ?_⟩
            · rw [e2]; exact g1
            · rw [e3]; exact g2
            · rw [e4]; exact g3
            · rw [e1]
              refine .inr ⟨by simp, ?_⟩
              rw [List.flatMap_cons, named_append]
              rcases g4 with ⟨h, h'⟩ | ⟨_, k, hk, h⟩
              · refine ⟨i, h', ?_⟩
                rw [h]; simpa [named_nil] using hi'
              · exact ⟨k, hk, catkinFrom_append.2 ⟨i, hi', h⟩⟩
          · rintro ⟨h0, g1, g2, g3, g4⟩
            rw [e2] at g1
            rw [e3] at g2
            rw [e4] at g3
            refine ⟨h0, g1, g2, g3, ?_⟩
            rw [e1] at g4
            rcases g4 with ⟨h, _⟩ | ⟨_, k, hk, h⟩
            · cases h
            · rw [List.flatMap_cons, named_append, catkinFrom_append] at h
              obtain ⟨q, hq, h⟩ := h
              have : q = i := by
                rw [← each_catkinChild] at hq
                simp only [hi] at hq
                cases hq; rfl
              subst this
              by_cases hn : named c!"catkin" kids = []
              · left
                refine ⟨hn, ?_⟩
                rw [hn] at h
                simp only [List.flatMap_nil, named_nil] at h
                rcases h with ⟨_, rfl⟩ | ⟨h, _⟩
                · exact hk
                · exact absurd rfl h
              · exact .inr ⟨hn, k, hk, h⟩
      rw [if_neg h4]
      simp only [ih]
      have en : ∀ n, n ≠ m → named n (.elem m attrs inner :: kids) = named n kids := fun n h => by
        rw [named_elem, if_neg (Ne.symm h)]
      constructor
      · rintro ⟨g0, g1, g2, g3, g4⟩
        exact ⟨g0, by rw [en _ (Ne.symm h1)]; exact g1, by rw [en _ (Ne.symm h2)]; exact g2, by rw [en _ (Ne.symm h3)]; exact g3,
          by rw [en _ (Ne.symm h4)]; exact g4⟩
      · rintro ⟨g0, g1, g2, g3, g4⟩
        rw [en _ (Ne.symm h1)] at g1
        rw [en _ (Ne.symm h2)] at g2
        rw [en _ (Ne.symm h3)] at g3
        rw [en _ (Ne.symm h4)] at g4
        exact ⟨g0, g1, g2, g3, g4⟩

theorem decodeCpp_iff (b : Body) (c : CppConfig.Config) : decodeCpp b.1 b.2 = .ok c ↔ CppIs b c := by
  unfold decodeCpp
  constructor
  · intro h
    cases ha : each cppAttr ⟨Variant.animate, [], [], false, none⟩ b.1 with
    | error e => rw [ha] at h; cases h
    | ok c' =>
      rw [ha] at h
      simp only [each_cppChild] at h
      obtain ⟨v, hv, rfl⟩ := (each_cppAttr _ _ _).1 ha
      obtain ⟨g0, ⟨is, g1, g1'⟩, ⟨cs, g2, g2'⟩, g3, g4⟩ := h
      simp only [List.nil_append, Bool.false_eq_true, false_or, Option.getD_none] at g0 g1' g2' g3 g4
      refine ⟨by rw [g0]; exact hv, by rw [g1']; exact g1, by rw [g2']; exact g2, g3, ?_⟩
      rcases g4 with ⟨h, h'⟩ | ⟨h, k, h', hk⟩
      · rw [h']; exact h
      · rw [h']; exact ⟨h, catkinFrom_none.1 hk⟩
  · rintro ⟨g0, g1, g2, g3, g4⟩
    rw [(each_cppAttr b.1 ⟨Variant.animate, [], [], false, none⟩ ⟨c.variant, [], [], false, none⟩).2 ⟨_, g0, rfl⟩]
    simp only [each_cppChild]
    refine ⟨rfl, ⟨_, g1, rfl⟩, ⟨_, g2, rfl⟩, by simpa using g3, ?_⟩
    cases hk : c.catkin with
    | none => rw [hk] at g4; exact .inl ⟨g4, rfl⟩
    | some k => rw [hk] at g4; exact .inr ⟨g4.1, k, rfl, catkinFrom_none.2 g4.2⟩

/-! ### configurations -/

theorem each_configChild (kids : List Xml) (c d : GenConfig) : each configChild c kids = .ok d ↔
    (∃ ps, List.Forall₂ CppIs (named c!"cpp" kids) ps ∧ d.cpps = c.cpps ++ ps) ∧
    d.directory = ((named c!"directory" kids).map textIn).getLastD c.directory := by
  induction kids generalizing c with
  | nil =>
    simp only [each, named_nil, List.map_nil, List.getLastD_nil]
    constructor
    · intro h; cases h; exact ⟨⟨[], .nil, by simp⟩, rfl⟩
    · rintro ⟨⟨ps, h, h'⟩, h2⟩
      cases h
      cases c; cases d
      simp only [List.append_nil] at h' h2
      rw [h', h2]
  | cons x kids ih =>
    cases x with
    | text s => simp only [each, configChild, ih, named_text]
    | elem m attrs inner =>
      simp only [each, configChild]
      by_cases h1 : m = c!"cpp"
      · subst h1
        rw [if_pos rfl]
        have e1 : named c!"cpp" (.elem c!"cpp" attrs inner :: kids) = (attrs, inner) :: named c!"cpp" kids := by
          simp [named_elem]
        have e2 : named c!"directory" (.elem c!"cpp" attrs inner :: kids) = named c!"directory" kids := by simp [named_elem]
        rw [e1, e2]
        cases hi : decodeCpp attrs inner with
        | error e =>
          constructor
          · intro h; cases h
          · rintro ⟨⟨is, h, _⟩, _⟩
            cases h with
            | cons h _ => rw [← decodeCpp_iff] at h; simp only [hi] at h; cases h
        | ok i =>
          simp only [ih]
          constructor
          · rintro ⟨⟨is, hh, hh'⟩, g⟩
            exact ⟨⟨i :: is, .cons ((decodeCpp_iff _ _).1 hi) hh, by rw [hh']; simp⟩, g⟩
          · rintro ⟨⟨is, hh, hh'⟩, g⟩
            cases hh with
            | cons h ht =>
              rw [← decodeCpp_iff] at h
              simp only [hi] at h
              cases h
              exact ⟨⟨_, ht, by rw [hh']; simp⟩, g⟩
      rw [if_neg h1, named_elem, if_neg h1]
      by_cases h2 : m = c!"directory"
      · subst h2
        rw [if_pos rfl]
        simp only [ih]
        simp [-List.getLastD_eq_getLast?, List.getLastD_cons, named_elem, data_eq attrs]
      · rw [if_neg h2, named_elem, if_neg h2]
        exact ih c

theorem decodeConfig_iff (x : Xml) (cfg : GenConfig) : decodeConfig x = .ok cfg ↔ ConfigIs x cfg := by
  cases x with
  | text s =>
    constructor
    · intro h; cases h
    · rintro ⟨_, _, h, _⟩; cases h
  | elem m attrs kids =>
    unfold decodeConfig
    simp only
    by_cases h1 : m = c!"rtcg-gen"
    · subst h1
      rw [if_pos rfl, each_configChild]
      simp only [List.nil_append]
      constructor
      · rintro ⟨⟨ps, h, h'⟩, g⟩; exact ⟨_, _, rfl, by rw [h']; exact h, g⟩
      · rintro ⟨_, _, h, h', g⟩; cases h; exact ⟨⟨_, h', rfl⟩, g⟩
    · rw [if_neg h1]
      constructor
      · intro h; cases h
      · rintro ⟨_, _, h, _⟩; cases h; exact absurd rfl h1

/-- A text gives exactly the configuration that its root element says. -/
theorem parseConfig_iff (N : XmlNames) (s : Str) (cfg : GenConfig) :
    parseConfig N s = .ok cfg ↔ Says N s cfg := by
  unfold parseConfig Says
  simp only [← XmlProofs.parse_iff, ← decodeConfig_iff]
  cases parse N s with
  | error e =>
    constructor
    · intro h; cases h
    · rintro ⟨_, h, _⟩; cases h
  | ok x =>
    constructor
    · intro h; exact ⟨x, rfl, h⟩
    · rintro ⟨_, h, h'⟩; cases h; exact h'

end Rtcg.ConfigProofs
