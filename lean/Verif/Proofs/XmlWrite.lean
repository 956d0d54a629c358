import Verif.Proofs.Config

/-
What is written as XML is a document that says what was to be written.
-/

namespace Rtcg.XmlWrite

open Rtcg Rtcg.Xml Rtcg.Spec Rtcg.Spec.XmlText Rtcg.Spec.ConfigXml

theorem fit_nil : fit [] = [] := rfl

theorem fit_cons (c : Char) (s : Str) : fit (c :: s) = (if XmlChar c then c else Char.ofNat 0xFFFD) :: fit s := rfl

theorem fit_self {s : Str} (h : ∀ c ∈ s, XmlChar c) : fit s = s := by
  induction s with
  | nil => rfl
  | cons c s ih => rw [fit_cons, if_pos (h c List.mem_cons_self), ih (fun c hc => h c (List.mem_cons_of_mem _ hc))]

theorem fit_xml (s : Str) : ∀ c ∈ fit s, XmlChar c := by
  intro c hc
  obtain ⟨x, _, rfl⟩ := List.mem_map.1 hc
  split
  · assumption
  · decide

/-! ### escaping -/

/-- The characters that are always escaped. -/
def escaped : List Char := ['<', '>', '&', '"', '\'']

theorem ref_quot : Reference c!"&#34;" '"' :=
  .decimal (ds := c!"34") (n := 34) (.more (t := c!"3") (.one (d := 3) (by decide) (by decide)) (d := 4) (by decide) (by decide)) (.inl (by decide))
theorem ref_apos : Reference c!"&#39;" '\'' :=
  .decimal (ds := c!"39") (n := 39) (.more (t := c!"3") (.one (d := 3) (by decide) (by decide)) (d := 9) (by decide) (by decide)) (.inl (by decide))
theorem ref_amp : Reference c!"&amp;" '&' := .named (name := c!"amp") (by decide)
theorem ref_lt : Reference c!"&lt;" '<' := .named (name := c!"lt") (by decide)
theorem ref_gt : Reference c!"&gt;" '>' := .named (name := c!"gt") (by decide)
theorem ref_tab : Reference c!"&#x9;" '\t' := .hex (ds := c!"9") (n := 9) (.one (by decide) (by decide)) (.inl (by decide))
theorem ref_nl : Reference c!"&#xA;" '\n' := .hex (ds := c!"A") (n := 10) (.one (by decide) (by decide)) (.inl (by decide))
theorem ref_cr : Reference c!"&#xD;" '\r' := .hex (ds := c!"D") (n := 13) (.one (by decide) (by decide)) (.inl (by decide))

/-- An escaped text stands for the text. -/
theorem escape_text {plain : Char → Prop} (hp : ∀ c, c ∉ escaped → plain c) (s : Str) : Text plain True (escape s) (fit s) := by
  induction s with
  | nil => exact .nil
  | cons c s ih =>
    have e : escape (c :: s) = escapeChar c ++ escape s := rfl
    rw [e, fit_cons]
    unfold escapeChar
    have ref : ∀ (r : Str) (x : Char), Reference r x → XmlChar x → c = x →
        Text plain True (r ++ escape s) ((if XmlChar c then c else Char.ofNat 0xFFFD) :: fit s) := by
      rintro r x hr hx rfl
      rw [if_pos hx]
      exact .ref trivial hr hx ih
    split
    · exact ref _ _ ref_quot (by decide) ‹_›
    split
    · exact ref _ _ ref_apos (by decide) ‹_›
    split
    · exact ref _ _ ref_amp (by decide) ‹_›
    split
    · exact ref _ _ ref_lt (by decide) ‹_›
    split
    · exact ref _ _ ref_gt (by decide) ‹_›
    split
    · exact ref _ _ ref_tab (by decide) ‹_›
    split
    · exact ref _ _ ref_nl (by decide) ‹_›
    split
    · exact ref _ _ ref_cr (by decide) ‹_›
    rename_i h1 h2 h3 h4 h5 h6 h7 h8
    split
    · rename_i h
      have hx : ¬ XmlChar c := by rw [← XmlProofs.inRange_iff]; simpa using h
      rw [if_neg hx]
      exact .char (hp _ (by decide)) (by decide) (by decide) ih
    · rename_i h
      have hx : XmlChar c := by rw [← XmlProofs.inRange_iff]; simpa using h
      rw [if_pos hx]
      exact .char (hp _ (by simp [escaped, h1, h2, h3, h4, h5])) hx h8 ih

theorem escape_no_gt (s : Str) : '>' ∉ escape s := by
  intro h
  unfold escape at h
  obtain ⟨c, _, h⟩ := List.mem_flatMap.1 h
  unfold escapeChar at h
  repeat' split at h
  all_goals first
    | exact absurd h (by decide)
    | (rename_i h1 h2 h3 h4 h5 h6 h7 h8 h9; exact h5 (List.mem_singleton.1 h).symm)

theorem escape_charData (s : Str) : CharData (escape s) (fit s) := by
  refine ⟨escape_text (fun c hc => ?_) s, ?_⟩
  · simp [escaped] at hc; exact ⟨hc.1, hc.2.2.1⟩
  · rintro ⟨a, b, h⟩
    apply escape_no_gt s
    rw [h]; simp

theorem escape_attValue (s : Str) : AttValue (c!"\"" ++ escape s ++ c!"\"") (fit s) := by
  refine ⟨'"', escape s, by decide, by simp, escape_text (fun c hc => ?_) s⟩
  simp [escaped] at hc; exact ⟨hc.1, hc.2.2.1, hc.2.2.2.1⟩

theorem escape_nil_iff (s : Str) : escape s = [] ↔ s = [] := by
  cases s with
  | nil => simp [escape]
  | cons c s =>
    simp only [escape, List.flatMap_cons, List.append_eq_nil_iff, reduceCtorEq, iff_false, not_and]
    intro h
    exfalso
    unfold escapeChar at h
    repeat' split at h
    all_goals exact absurd h (by simp)

/-! ### names -/

/-- A name of small letters, `_` and `-`, beginning with a letter. -/
def plainName (n : Str) : Bool :=
  match n with
  | [] => false
  | c :: r => ('a' ≤ c && c ≤ 'z') && r.all (fun c => ('a' ≤ c && c ≤ 'z') || c = '_' || c = '-')

theorem plainName_no_colon {n : Str} (h : plainName n = true) : ':' ∉ n := by
  cases n with
  | nil => simp
  | cons c r =>
    simp only [plainName, Bool.and_eq_true, List.all_eq_true] at h
    intro hc
    rcases List.mem_cons.1 hc with rfl | hc
    · exact absurd h.1 (by decide)
    · exact absurd (h.2 _ hc) (by decide)

theorem plainName_qname {N : XmlNames} {n : Str} (h : plainName n = true) : QName N n := by
  refine ⟨?_, ?_⟩
  · cases n with
    | nil => cases h
    | cons c r =>
      simp only [plainName, Bool.and_eq_true, List.all_eq_true, decide_eq_true_eq, Bool.or_eq_true] at h
      refine ⟨c, r, rfl, .inr (.inl h.1), fun x hx => ?_⟩
      rcases h.2 x hx with (h | h) | h
      · exact .inl (.inr (.inl h))
      · exact .inl (.inr (.inr (.inl h)))
      · exact .inr (.inr (.inl h))
  · rintro a b c rfl
    exact plainName_no_colon h (by simp)

theorem plainName_local {n : Str} (h : plainName n = true) : LocalPart n n := by
  refine .inr ⟨rfl, ?_⟩
  rintro ⟨p, q, rfl, _⟩
  exact plainName_no_colon h (by simp)

/-! ### elements -/

/-- Attributes with the characters that no document may have replaced. -/
def fitAttrs (attrs : List (Str × Str)) : List (Str × Str) := attrs.map fun a => (a.1, fit a.2)

theorem printAttrs {N : XmlNames} {attrs : List (Str × Str)} (h : ∀ a ∈ attrs, plainName a.1 = true) :
    Attributes N (attrs.flatMap printAttr) (fitAttrs attrs) := by
  induction attrs with
  | nil => exact .nil
  | cons a attrs ih =>
    have h1 := h a List.mem_cons_self
    have h2 := ih fun a ha => h a (List.mem_cons_of_mem _ ha)
    have e : (a :: attrs).flatMap printAttr =
        c!" " ++ a.1 ++ [] ++ '=' :: ([] ++ (c!"\"" ++ escape a.2 ++ c!"\"")) ++ attrs.flatMap printAttr := by
      simp [printAttr]
    rw [e]
    exact .cons (by intro c hc; simp at hc; subst hc; decide) (plainName_qname h1) (plainName_local h1) (by intro c hc; simp at hc)
      (by intro c hc; simp at hc) (escape_attValue a.2) h2

theorem printTag {N : XmlNames} {n : Str} {attrs : List (Str × Str)} (hn : plainName n = true) (h : ∀ a ∈ attrs, plainName a.1 = true) :
    Tag N (n ++ attrs.flatMap printAttr) n (fitAttrs attrs) := by
  refine ⟨attrs.flatMap printAttr, [], by simp, plainName_qname hn, printAttrs h, by intro c hc; simp at hc, ?_⟩
  intro c r hc
  cases attrs with
  | nil => simp at hc
  | cons a attrs =>
    simp [printAttr] at hc
    rw [← hc.1]
    unfold NameChar
    decide

/-- An element with its content. -/
def node (n : Str) (attrs : List (Str × Str)) (content : Str) : Str :=
  c!"<" ++ n ++ attrs.flatMap printAttr ++ c!">" ++ content ++ c!"</" ++ n ++ c!">"

theorem node_element {N : XmlNames} {n : Str} {attrs : List (Str × Str)} {content : Str} {kids : List Xml} (hn : plainName n = true)
    (h : ∀ a ∈ attrs, plainName a.1 = true) (hc : Spec.XmlText.Content N content kids) :
    Element N (node n attrs content) (.elem n (fitAttrs attrs) kids) := by
  have := Element.full (printTag (N := N) hn h) (plainName_local hn) hc (w := []) (by intro c hc; simp at hc)
  simpa [node] using this

/-- The text of an element with only text. -/
def textKids (s : Str) : List Xml := if s = [] then [] else [.text (fit s)]

theorem textKids_content {N : XmlNames} (s : Str) : Spec.XmlText.Content N (escape s) (textKids s) := by
  unfold textKids
  by_cases h : s = []
  · subst h; exact .nil
  · rw [if_neg h]
    have := Spec.XmlText.Content.text (N := N) (escape_charData s) (by rw [Ne, escape_nil_iff]; exact h) (.inl rfl) .nil
    simpa using this

theorem textIn_textKids (attrs : List (Str × Str)) (s : Str) : textIn (attrs, textKids s) = fit s := by
  unfold textKids
  by_cases h : s = []
  · subst h; rfl
  · rw [if_neg h]; simp [textIn]

theorem blanks_charData {w : Str} (h : ∀ c ∈ w, c ∈ [' ', '\t', '\n']) : CharData w w := by
  refine ⟨?_, ?_⟩
  · induction w with
    | nil => exact .nil
    | cons c w ih =>
      have hc := h c List.mem_cons_self
      have ih := ih fun c hc => h c (List.mem_cons_of_mem _ hc)
      have : (c ≠ '<' ∧ c ≠ '&') ∧ XmlChar c ∧ c ≠ '\r' := by
        revert hc
        generalize c = x
        revert x
        decide +kernel
      exact .char this.1 this.2.1 this.2.2 ih
  · rintro ⟨a, b, rfl⟩
    exact absurd (h ']' (by simp)) (by decide)

/-- Something to be written in an element: name, attributes, content and children. -/
structure Item where
  name : Str
  attrs : List (Str × Str)
  content : Str
  kids : List Xml

/-- It can be written. -/
def Item.OK (N : XmlNames) (i : Item) : Prop :=
  plainName i.name = true ∧ (∀ a ∈ i.attrs, plainName a.1 = true) ∧ Spec.XmlText.Content N i.content i.kids

/-- Items as children, with white space before each and at the end. -/
def itemsText (is : List Item) : Str := is.flatMap (fun i => c!"\n\t" ++ node i.name i.attrs i.content) ++ c!"\n"

def itemsKids (is : List Item) : List Xml :=
  is.flatMap (fun i => [.text c!"\n\t", .elem i.name (fitAttrs i.attrs) i.kids]) ++ [.text c!"\n"]

theorem items_content {N : XmlNames} {is : List Item} (h : ∀ i ∈ is, i.OK N) : Spec.XmlText.Content N (itemsText is) (itemsKids is) := by
  induction is with
  | nil =>
    have := Spec.XmlText.Content.text (N := N) (blanks_charData (w := c!"\n") (by decide)) (by decide) (.inl rfl) .nil
    simpa [itemsText, itemsKids] using this
  | cons i is ih =>
    have ih := ih fun i hi => h i (List.mem_cons_of_mem _ hi)
    obtain ⟨h1, h2, h3⟩ := h i List.mem_cons_self
    have he := Spec.XmlText.Content.element (node_element h1 h2 h3) ih
    have := Spec.XmlText.Content.text (N := N) (blanks_charData (w := c!"\n\t") (by decide)) (by decide)
      (.inr ⟨_, by simp only [node, List.cons_append, List.nil_append]; rfl⟩) he
    simpa [itemsText, itemsKids] using this

theorem named_items (n : Str) (is : List Item) :
    named n (itemsKids is) = (is.filter fun i => i.name = n).map fun i => (fitAttrs i.attrs, i.kids) := by
  induction is with
  | nil => rfl
  | cons i is ih =>
    have e : itemsKids (i :: is) = .text c!"\n\t" :: .elem i.name (fitAttrs i.attrs) i.kids :: itemsKids is := by simp [itemsKids]
    rw [e, ConfigProofs.named_text, ConfigProofs.named_elem, ih, List.filter_cons]
    by_cases h : i.name = n <;> simp [h]

/-- An element with only text. -/
def line (n : Str) (attrs : List (Str × Str)) (s : Str) : Item := ⟨n, attrs, escape s, textKids s⟩

theorem line_ok {N : XmlNames} {n : Str} {attrs : List (Str × Str)} {s : Str} (hn : plainName n = true)
    (h : ∀ a ∈ attrs, plainName a.1 = true) : (line n attrs s).OK N := ⟨hn, h, textKids_content s⟩

/-! ### package.xml -/

theorem printInt_eq {i : Int} (hlo : -2 ^ 63 ≤ i) (hhi : i < 2 ^ 63) : printInt i = formatInt (Int64.ofInt i) := by
  unfold printInt formatInt
  rw [Int64.toInt_ofInt_of_le hlo hhi]

theorem printInt_xmlInt {i : Int} (hlo : -2 ^ 63 ≤ i) (hhi : i < 2 ^ 63) : XmlInt (printInt i) i := by
  rw [printInt_eq hlo hhi]
  refine .inr ⟨formatInt (Int64.ofInt i), ?_, ?_, hlo, hhi⟩
  · exact ((trimSpace_eq_iff _ _).1 (trimSpace_of_noOuterSpace (noOuterSpace_of_forall (formatInt_noSpace _))))
  · have := denotesInt_formatInt (Int64.ofInt i)
    rwa [Int64.toInt_ofInt_of_le hlo hhi] at this

theorem digit_xml {c : Char} (h : '0' ≤ c ∧ c ≤ '9') : XmlChar c := by
  refine .inr (.inl ?_)
  have h1 : (48 : Nat) ≤ c.toNat := by have := h.1; rw [Char.le_def, UInt32.le_iff_toNat_le] at this; exact this
  have h2 : c.toNat ≤ 57 := by have := h.2; rw [Char.le_def, UInt32.le_iff_toNat_le] at this; exact this
  omega

theorem printInt_xml (i : Int) : ∀ c ∈ printInt i, XmlChar c := by
  intro c hc
  unfold printInt at hc
  split at hc
  · rcases List.mem_cons.1 hc with rfl | hc
    · decide
    · exact digit_xml (decNat_digits _ _ hc)
  · exact digit_xml (decNat_digits _ _ hc)

/-- The children of a package. -/
def packageItems (p : Catkin.Package) : List Item :=
  [line c!"name" [] p.name, line c!"version" [] p.version, line c!"description" [] p.description,
    line c!"maintainer" [(c!"email", p.maintainer.email)] p.maintainer.name, line c!"license" [] p.license] ++
  p.buildtoolDepends.map (line c!"buildtool_depend" []) ++ p.depends.map (line c!"depend" [])

/-- The attributes of a package. -/
def packageAttrs (p : Catkin.Package) : List (Str × Str) := if p.format = 0 then [] else [(c!"format", printInt p.format)]

theorem printLine_eq (n : Str) (attrs : List (Str × Str)) (s : Str) :
    printLine n attrs s = c!"\n\t" ++ node n attrs (escape s) := by
  simp [printLine, node]

theorem packageText_eq (p : Catkin.Package) :
    packageText p = c!"<?xml version=\"1.0\" encoding=\"UTF-8\"?>\n" ++ node c!"package" (packageAttrs p) (itemsText (packageItems p)) := by
  have e1 : (if p.format = 0 then [] else printAttr (c!"format", printInt p.format)) = (packageAttrs p).flatMap printAttr := by
    unfold packageAttrs
    split <;> simp
  have e2 : ∀ n (l : List Str), l.flatMap (printLine n []) =
      (l.map (line n [])).flatMap (fun i => c!"\n\t" ++ node i.name i.attrs i.content) := by
    intro n l
    rw [List.flatMap_map]
    refine congrArg (fun f => List.flatMap f l) (funext fun s => ?_)
    rw [printLine_eq]
    rfl
  unfold packageText
  rw [e1, e2, e2]
  simp only [printLine_eq, itemsText, packageItems, List.flatMap_append, List.flatMap_cons, List.flatMap_nil, List.append_nil]
  have e3 : ∀ (n : Str) attrs content, node n attrs content = c!"<" ++ n ++ attrs.flatMap printAttr ++ c!">" ++ content ++ c!"</" ++ n ++ c!">" :=
    fun _ _ _ => rfl
  rw [e3 c!"package"]
  simp [line]

theorem packageItems_ok {N : XmlNames} (p : Catkin.Package) : ∀ i ∈ packageItems p, i.OK N := by
  intro i hi
  simp only [packageItems, List.mem_append, List.mem_cons, List.mem_map, List.not_mem_nil, or_false] at hi
  rcases hi with ((rfl | rfl | rfl | rfl | rfl) | ⟨s, _, rfl⟩) | ⟨s, _, rfl⟩
  all_goals refine line_ok (by decide) ?_
  all_goals intro a ha
  all_goals first
    | (simp at ha; done)
    | (cases List.mem_singleton.1 ha; rfl)

theorem package_element {N : XmlNames} (p : Catkin.Package) :
    Element N (node c!"package" (packageAttrs p) (itemsText (packageItems p)))
      (.elem c!"package" (fitAttrs (packageAttrs p)) (itemsKids (packageItems p))) := by
  refine node_element (by decide) ?_ (items_content (packageItems_ok p))
  intro a ha
  unfold packageAttrs at ha
  split at ha
  · simp at ha
  · cases List.mem_singleton.1 ha; rfl

theorem filter_lines_same (n : Str) (l : List Str) :
    (l.map (line n [])).filter (fun i => i.name = n) = l.map (line n []) := by
  rw [List.filter_eq_self]
  intro i hi
  obtain ⟨s, _, rfl⟩ := List.mem_map.1 hi
  simp [line]

theorem filter_lines_other {n m : Str} (h : m ≠ n) (l : List Str) : (l.map (line m [])).filter (fun i => i.name = n) = [] := by
  rw [List.filter_eq_nil_iff]
  intro i hi
  obtain ⟨s, _, rfl⟩ := List.mem_map.1 hi
  simp [line, h]

theorem map_text_lines (n : Str) (l : List Str) :
    ((l.map (line n [])).map fun i => (fitAttrs i.attrs, i.kids)).map textIn = l.map fit := by
  rw [List.map_map, List.map_map]
  refine List.map_congr_left fun s _ => ?_
  exact textIn_textKids _ s

theorem packageFormat {p : Catkin.Package} (hlo : -2 ^ 63 ≤ p.format) (hhi : p.format < 2 ^ 63) :
    LastOf XmlInt 0 (values c!"format" (fitAttrs (packageAttrs p))) p.format := by
  unfold packageAttrs
  by_cases h : p.format = 0
  · rw [if_pos h]; exact ConfigProofs.lastOf_nil.2 h
  · rw [if_neg h]
    have : values c!"format" (fitAttrs [(c!"format", printInt p.format)]) = [printInt p.format] := by
      simp [fitAttrs, values, fit_self (printInt_xml _)]
    rw [this]
    exact ConfigProofs.lastOf_cons.2 ⟨_, printInt_xmlInt hlo hhi, ConfigProofs.lastOf_nil.2 rfl⟩

theorem package_is {p : Catkin.Package} (hlo : -2 ^ 63 ≤ p.format) (hhi : p.format < 2 ^ 63) :
    PackageIs [(fitAttrs (packageAttrs p), itemsKids (packageItems p))] (fitPackage p) := by
  have key : ∀ n, n ∈ [c!"name", c!"version", c!"description", c!"maintainer", c!"license"] →
      (packageItems p).filter (fun i => i.name = n) = 
      [line c!"name" [] p.name, line c!"version" [] p.version, line c!"description" [] p.description,
        line c!"maintainer" [(c!"email", p.maintainer.email)] p.maintainer.name, line c!"license" [] p.license].filter
          (fun i => i.name = n) := by
    intro n hn
    rw [packageItems, List.filter_append, List.filter_append, filter_lines_other, filter_lines_other]
    · simp only [List.append_nil]
    · rintro rfl; exact absurd hn (by decide)
    · rintro rfl; exact absurd hn (by decide)
  constructor
  all_goals simp only [List.flatMap_cons, List.flatMap_nil, List.append_nil, named_items]
  · exact packageFormat hlo hhi
  · rw [key _ (by decide)]; simp [line, textIn_textKids, last, fitPackage]
  · rw [key _ (by decide)]; simp [line, textIn_textKids, last, fitPackage]
  · rw [key _ (by decide)]; simp [line, textIn_textKids, last, fitPackage]
  · rw [key _ (by decide)]; simp [line, textIn_textKids, last, fitPackage]
  · rw [key _ (by decide)]; simp [line, last, fitPackage, fitAttrs, values]
  · rw [key _ (by decide)]; simp [line, textIn_textKids, last, fitPackage]
  · rw [packageItems, List.filter_append, List.filter_append, filter_lines_other (m := c!"depend") (by decide), filter_lines_same,
      List.append_nil, List.map_append, List.map_append, map_text_lines]
    simp [line, fitPackage]
  · rw [packageItems, List.filter_append, List.filter_append, filter_lines_other (m := c!"buildtool_depend") (by decide), filter_lines_same,
      List.append_nil, List.map_append, List.map_append, map_text_lines]
    simp [line, fitPackage]

/-! ### any configuration -/

theorem fitPackage_self {p : Catkin.Package} (h : PackageFits p) : fitPackage p = p := by
  obtain ⟨f, n, v, d, ⟨mn, me⟩, l, bd, dd⟩ := p
  have hb : bd.map fit = bd := by
    refine (List.map_congr_left fun s hs => ?_).trans (List.map_id _)
    exact fit_self (h.texts s (by simp [packageTexts, hs]))
  have hd : dd.map fit = dd := by
    refine (List.map_congr_left fun s hs => ?_).trans (List.map_id _)
    exact fit_self (h.texts s (by simp [packageTexts, hs]))
  simp only [fitPackage, hb, hd]
  rw [fit_self (h.texts n (by simp [packageTexts])), fit_self (h.texts v (by simp [packageTexts])),
    fit_self (h.texts d (by simp [packageTexts])), fit_self (h.texts mn (by simp [packageTexts])),
    fit_self (h.texts me (by simp [packageTexts])), fit_self (h.texts l (by simp [packageTexts]))]

def packageItem (p : Catkin.Package) : Item :=
  ⟨c!"package", packageAttrs p, itemsText (packageItems p), itemsKids (packageItems p)⟩

def catkinItem (k : Option Catkin.Package) : Item :=
  ⟨c!"catkin", [], itemsText (k.toList.map packageItem), itemsKids (k.toList.map packageItem)⟩

def includeItem (i : CppConfig.Include) : Item :=
  ⟨c!"include", [(c!"src", i.src), (c!"system", if i.isSystem then c!"true" else c!"false")], [], []⟩

def channelItem (c : CppConfig.Channel) : Item := ⟨c!"channel", [(c!"name", c.name), (c!"type", c.type)], [], []⟩

def cppItems (c : CppConfig.Config) : List Item :=
  c.includes.map includeItem ++ c.channels.map channelItem ++ (if c.makefile then [⟨c!"makefile", [], [], []⟩] else []) ++
    c.catkin.toList.map catkinItem

def cppItem (c : CppConfig.Config) : Item :=
  ⟨c!"cpp", [(c!"variant", c.variant.string)], itemsText (cppItems c), itemsKids (cppItems c)⟩

def configItems (cfg : GenConfig) : List Item := line c!"directory" [] cfg.directory :: cfg.cpps.map cppItem

/-- A text for a configuration. -/
def configText (cfg : GenConfig) : Str := node c!"rtcg-gen" [] (itemsText (configItems cfg))

theorem packageItem_ok {N : XmlNames} (p : Catkin.Package) : (packageItem p).OK N := by
  refine ⟨rfl, ?_, items_content ?_⟩
  · intro a ha
    simp only [packageItem, packageAttrs] at ha
    split at ha
    · simp at ha
    · cases List.mem_singleton.1 ha; rfl
  · exact packageItems_ok p

theorem catkinItem_ok {N : XmlNames} (k : Option Catkin.Package) : (catkinItem k).OK N := by
  refine ⟨rfl, ?_, items_content ?_⟩
  · intro a ha; simp [catkinItem] at ha
  · intro i hi
    obtain ⟨p, _, rfl⟩ := List.mem_map.1 hi
    exact packageItem_ok p

theorem includeItem_ok {N : XmlNames} (i : CppConfig.Include) : (includeItem i).OK N := by
  refine ⟨rfl, ?_, .nil⟩
  intro a ha
  simp only [includeItem, List.mem_cons, List.not_mem_nil, or_false] at ha
  rcases ha with rfl | rfl <;> rfl

theorem channelItem_ok {N : XmlNames} (i : CppConfig.Channel) : (channelItem i).OK N := by
  refine ⟨rfl, ?_, .nil⟩
  intro a ha
  simp only [channelItem, List.mem_cons, List.not_mem_nil, or_false] at ha
  rcases ha with rfl | rfl <;> rfl

theorem cppItem_ok {N : XmlNames} (c : CppConfig.Config) : (cppItem c).OK N := by
  refine ⟨rfl, ?_, items_content ?_⟩
  · intro a ha
    cases List.mem_singleton.1 ha; rfl
  · intro i hi
    simp only [cppItems, List.mem_append, List.mem_map] at hi
    rcases hi with ((⟨x, _, rfl⟩ | ⟨x, _, rfl⟩) | hi) | ⟨x, _, rfl⟩
    · exact includeItem_ok x
    · exact channelItem_ok x
    · split at hi
      · cases List.mem_singleton.1 hi
        exact ⟨by decide, by intro a ha; simp at ha, .nil⟩
      · simp at hi
    · exact catkinItem_ok x

theorem config_document {N : XmlNames} (cfg : GenConfig) :
    Document N (configText cfg) (.elem c!"rtcg-gen" [] (itemsKids (configItems cfg))) := by
  refine ⟨[], configText cfg, [], by simp, .nil, ?_⟩
  refine node_element (by decide) (by intro a ha; simp at ha) (items_content ?_)
  intro i hi
  rcases List.mem_cons.1 hi with rfl | hi
  · exact line_ok (by decide) (by intro a ha; simp at ha)
  · obtain ⟨c, _, rfl⟩ := List.mem_map.1 hi
    exact cppItem_ok c

theorem filter_map_same {α : Type} {f : α → Item} {n : Str} (h : ∀ a, (f a).name = n) (l : List α) :
    (l.map f).filter (fun i => i.name = n) = l.map f := by
  rw [List.filter_eq_self]
  intro i hi
  obtain ⟨s, _, rfl⟩ := List.mem_map.1 hi
  simp [h]

theorem filter_map_other {α : Type} {f : α → Item} {m n : Str} (h : ∀ a, (f a).name = m) (hn : m ≠ n) (l : List α) :
    (l.map f).filter (fun i => i.name = n) = [] := by
  rw [List.filter_eq_nil_iff]
  intro i hi
  obtain ⟨s, _, rfl⟩ := List.mem_map.1 hi
  simp [h, hn]

theorem forall₂_items {α : Type} {R : Body → α → Prop} {f : α → Item} (l : List α)
    (h : ∀ a ∈ l, R (fitAttrs (f a).attrs, (f a).kids) a) :
    List.Forall₂ R ((l.map f).map fun i => (fitAttrs i.attrs, i.kids)) l := by
  induction l with
  | nil => exact .nil
  | cons a l ih => exact .cons (h a List.mem_cons_self) (ih fun a ha => h a (List.mem_cons_of_mem _ ha))

theorem include_is {i : CppConfig.Include} (h : ∀ c ∈ i.src, XmlChar c) :
    IncludeIs (fitAttrs (includeItem i).attrs, (includeItem i).kids) i := by
  constructor
  · simp [includeItem, fitAttrs, values, last, fit_self h]
  · have : values c!"system" (fitAttrs (includeItem i).attrs) = [if i.isSystem then c!"true" else c!"false"] := by
      cases hb : i.isSystem <;> simp [includeItem, fitAttrs, values, hb] <;> exact fit_self (by decide)
    show LastOf XmlBool false (values c!"system" (fitAttrs (includeItem i).attrs)) i.isSystem
    rw [this]
    refine ConfigProofs.lastOf_cons.2 ⟨i.isSystem, ?_, ConfigProofs.lastOf_nil.2 rfl⟩
    rw [← ConfigProofs.decodeBool_iff]
    cases i.isSystem <;> rfl

theorem channel_is {c : CppConfig.Channel} (h : ∀ x ∈ c.name, XmlChar x) (h' : ∀ x ∈ c.type, XmlChar x) :
    ChannelIs (fitAttrs (channelItem c).attrs, (channelItem c).kids) c := by
  constructor
  · simp [channelItem, fitAttrs, values, last, fit_self h]
  · simp [channelItem, fitAttrs, values, last, fit_self h']

theorem package_is_self {p : Catkin.Package} (h : PackageFits p) :
    PackageIs [(fitAttrs (packageItem p).attrs, (packageItem p).kids)] p := by
  have := package_is h.lo h.hi
  rwa [fitPackage_self h] at this

theorem catkin_is {k : Option Catkin.Package} (h : ∀ p, k = some p → PackageFits p) :
    CatkinIs [(fitAttrs (catkinItem k).attrs, (catkinItem k).kids)] k := by
  unfold CatkinIs
  simp only [List.flatMap_cons, List.flatMap_nil, List.append_nil]
  have e : named c!"package" (catkinItem k).kids = (k.toList.map packageItem).map fun i => (fitAttrs i.attrs, i.kids) := by
    show named c!"package" (itemsKids (k.toList.map packageItem)) = _
    rw [named_items, filter_map_same (n := c!"package") (fun _ => rfl)]
  rw [e]
  cases k with
  | none => rfl
  | some p => exact ⟨by simp, package_is_self (h p rfl)⟩

theorem cpp_is {c : CppConfig.Config} (h : CppFits c) : CppIs (fitAttrs (cppItem c).attrs, (cppItem c).kids) c := by
  have emk : ∀ n, n ≠ c!"makefile" →
      (if c.makefile then [(⟨c!"makefile", [], [], []⟩ : Item)] else []).filter (fun i => i.name = n) = [] := by
    intro n hn
    cases c.makefile
    · rfl
    · simp [Ne.symm hn]
  have e : ∀ n, named n (cppItem c).kids = ((cppItems c).filter fun i => i.name = n).map fun i => (fitAttrs i.attrs, i.kids) :=
    fun n => named_items n _
  have hi : ∀ i, (includeItem i).name = c!"include" := fun _ => rfl
  have hc : ∀ i, (channelItem i).name = c!"channel" := fun _ => rfl
  have hk : ∀ i, (catkinItem i).name = c!"catkin" := fun _ => rfl
  constructor
  · have hv : values c!"variant" (fitAttrs (cppItem c).attrs) = [c.variant.string] := by
      have : ∀ x ∈ c.variant.string, XmlChar x := by
        rcases h.variant with hv | hv <;> rw [hv] <;> decide
      simp [cppItem, fitAttrs, values, fit_self this]
    show LastOf XmlVariant _ (values c!"variant" (fitAttrs (cppItem c).attrs)) _
    rw [hv]
    refine ConfigProofs.lastOf_cons.2 ⟨c.variant, ?_, ConfigProofs.lastOf_nil.2 rfl⟩
    rw [← ConfigProofs.variant_iff]
    rcases h.variant with hv | hv <;> rw [hv] <;> rfl
  · show List.Forall₂ _ (named c!"include" (cppItem c).kids) _
    rw [e, cppItems, List.filter_append, List.filter_append, List.filter_append, filter_map_same hi,
      filter_map_other hc (by decide), emk _ (by decide), filter_map_other hk (by decide)]
    simp only [List.append_nil]
    exact forall₂_items _ fun i hi => include_is (h.includes i hi)
  · show List.Forall₂ _ (named c!"channel" (cppItem c).kids) _
    rw [e, cppItems, List.filter_append, List.filter_append, List.filter_append, filter_map_other hi (by decide),
      filter_map_same hc, emk _ (by decide), filter_map_other hk (by decide)]
    simp only [List.append_nil, List.nil_append]
    exact forall₂_items _ fun i hi => channel_is (h.channels i hi).1 (h.channels i hi).2
  · show _ ↔ named c!"makefile" (cppItem c).kids ≠ []
    rw [e, cppItems, List.filter_append, List.filter_append, List.filter_append, filter_map_other hi (by decide),
      filter_map_other hc (by decide), filter_map_other hk (by decide)]
    cases c.makefile <;> simp
  · have ek : named c!"catkin" (cppItem c).kids = (c.catkin.toList.map catkinItem).map fun i => (fitAttrs i.attrs, i.kids) := by
      rw [e, cppItems, List.filter_append, List.filter_append, List.filter_append, filter_map_other hi (by decide),
        filter_map_other hc (by decide), emk _ (by decide), filter_map_same hk]
      rfl
    simp only [ek]
    cases hck : c.catkin with
    | none => rfl
    | some k => exact ⟨by simp, catkin_is fun p hp => h.catkin p (by rw [hck, hp])⟩

theorem config_is {cfg : GenConfig} (h : ConfigFits cfg) :
    ConfigIs (.elem c!"rtcg-gen" [] (itemsKids (configItems cfg))) cfg := by
  have hc : ∀ c, (cppItem c).name = c!"cpp" := fun _ => rfl
  refine ⟨⟨_, _, rfl, ?_, ?_⟩⟩
  · rw [named_items, configItems, List.filter_cons, if_neg (by simp [line]), filter_map_same hc]
    exact forall₂_items _ fun c hc => cpp_is (h.cpps c hc)
  · rw [named_items, configItems, List.filter_cons, if_pos (by simp [line]), filter_map_other hc (by decide)]
    simp [line, textIn_textKids, last, fit_self h.directory]

theorem parse_configText {N : XmlNames} {cfg : GenConfig} (h : ConfigFits cfg) : parseConfig N (configText cfg) = .ok cfg :=
  (ConfigProofs.parseConfig_iff _ _ _).2 ⟨_, config_document cfg, config_is h⟩

end Rtcg.XmlWrite
