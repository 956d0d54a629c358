import Verif.Props.Run
import Verif.Proofs.ConfigSay
import Verif.Proofs.XmlFail
import Verif.Proofs.Replace

/-
C93–C97: the XML that rtcg-gen reads and writes.
-/

namespace Rtcg

open Spec Program

/-- ASCII names only, for examples. -/
def asciiNames : XmlNames := ⟨fun _ => false, fun _ => false⟩

mutual
/-- Trees can be compared, for examples. -/
def decXml : (x y : Xml) → Decidable (x = y)
  | .text s, .text t => if h : s = t then isTrue (by rw [h]) else isFalse (by rintro ⟨⟩; exact h rfl)
  | .text _, .elem _ _ _ => isFalse (by rintro ⟨⟩)
  | .elem _ _ _, .text _ => isFalse (by rintro ⟨⟩)
  | .elem n as ks, .elem m bs ls =>
    if h : n = m ∧ as = bs then
      match decXmls ks ls with
      | isTrue h' => isTrue (by rw [h.1, h.2, h'])
      | isFalse h' => isFalse (by rintro ⟨⟩; exact h' rfl)
    else isFalse (by rintro ⟨⟩; exact h ⟨rfl, rfl⟩)
def decXmls : (x y : List Xml) → Decidable (x = y)
  | [], [] => isTrue rfl
  | [], _ :: _ => isFalse (by rintro ⟨⟩)
  | _ :: _, [] => isFalse (by rintro ⟨⟩)
  | x :: xs, y :: ys =>
    match decXml x y with
    | isFalse h => isFalse (by rintro ⟨⟩; exact h rfl)
    | isTrue h =>
      match decXmls xs ys with
      | isFalse h' => isFalse (by rintro ⟨⟩; exact h' rfl)
      | isTrue h' => isTrue (by rw [h, h'])
end

instance : DecidableEq Xml := decXml

/-! ### C93 -/

/-- C93: decoding a configuration succeeds with exactly what the text says as an XML document. -/
theorem C93_reads (N : XmlNames) (text : Str) (cfg : GenConfig) : Xml.parseConfig N text = .ok cfg ↔ ConfigXml.Says N text cfg :=
  ConfigProofs.parseConfig_iff N text cfg

/-- C93: a text says no two different configurations. -/
theorem C93_unique (N : XmlNames) (text : Str) (cfg cfg' : GenConfig) (h : ConfigXml.Says N text cfg) (h' : ConfigXml.Says N text cfg') :
    cfg = cfg' := by
  have := ((C93_reads N text cfg).2 h).symm.trans ((C93_reads N text cfg').2 h')
  exact Except.ok.inj this

/-- C93: whatever the text is, decoding it does not crash: if it says no configuration, there is an error. -/
theorem C93_fails (N : XmlNames) (text : Str) (h : ¬ ∃ cfg, ConfigXml.Says N text cfg) : ∃ e, Xml.parseConfig N text = .error (.err e) := by
  cases hp : Xml.parseConfig N text with
  | ok cfg => exact absurd ⟨cfg, (C93_reads N text cfg).1 hp⟩ h
  | error e => obtain ⟨x, rfl⟩ := XmlFail.parseConfig_fails hp; exact ⟨x, rfl⟩

/-- C93: loading a configuration file succeeds exactly if the file is there and says a configuration; it gives that, with the directory of
the file where it gives none. -/
theorem C93_load (T : TextLayer) (cwd : Loc) (fs : Fs) (path : Str) (cfg : GenConfig) :
    loadConfig T cwd fs path = .ok cfg ↔
      ∃ c raw, fs.file (locate cwd path) = some c ∧ ConfigXml.Says T.names (T.text c) raw ∧ cfg.cpps = raw.cpps ∧
        ((raw.directory ≠ [] ∧ cfg.directory = raw.directory) ∨ (raw.directory = [] ∧ cfg.directory = dirPath path)) := by
  unfold loadConfig
  cases hf : fs.file (locate cwd path) with
  | none => exact ⟨fun h => (nomatch h), fun ⟨_, _, h, _⟩ => (nomatch h)⟩
  | some c =>
    simp only [TextLayer.parseConfig]
    constructor
    · intro h
      cases hp : Xml.parseConfig T.names (T.text c) with
      | error e => rw [hp] at h; cases h
      | ok raw =>
        rw [hp] at h
        refine ⟨c, raw, rfl, (C93_reads _ _ _).1 hp, ?_⟩
        simp only [Except.ok.injEq] at h
        rw [← h]
        by_cases hd : raw.directory = []
        · rw [if_pos hd]; exact ⟨rfl, .inr ⟨hd, rfl⟩⟩
        · rw [if_neg hd]; exact ⟨rfl, .inl ⟨hd, rfl⟩⟩
    · rintro ⟨c', raw, e, hs, hc, hd⟩
      cases e
      rw [(C93_reads _ _ _).2 hs]
      obtain ⟨cpps, dir⟩ := cfg
      obtain ⟨cpps', dir'⟩ := raw
      simp only at hc hd
      rcases hd with ⟨h1, h2⟩ | ⟨h1, h2⟩
      · simp only [if_neg h1, hc, h2]
      · simp only [if_pos h1, hc, h2]

/-- The example of the repository, examples/bmon/gen.xml. -/
def bmonText : Str := c!"<?xml version=\"1.0\" encoding=\"UTF-8\" ?>\n<rtcg-gen>\n    <cpp variant=\"animate\">\n        <makefile />\n\n" ++
  c!"        <!-- Tell the generator that this channel maps to a float: -->\n        <channel name=\"batteryInfo\" type=\"float\" />\n    </cpp>\n" ++
  c!"    <cpp variant=\"ros\">\n        <catkin>\n            <package>\n                <buildtool_depend>catkin</buildtool_depend>\n" ++
  c!"                <depend>roscpp</depend>\n                <depend>std_msgs</depend>\n                <depend>sensor_msgs</depend>\n" ++
  c!"            </package>\n        </catkin>\n\n        <include src=\"std_msgs/Float32.h\" />\n" ++
  c!"        <include src=\"sensor_msgs/BatteryState.h\" />\n\n" ++
  c!"        <!-- Tell the generator that this channel maps non-trivially to a ROS type: -->\n" ++
  c!"        <channel name=\"batteryInfo\" type=\"sensor_msgs::BatteryState\" />\n    </cpp>\n</rtcg-gen>"

/-- What it says. -/
def bmonConfig : GenConfig :=
  ⟨[⟨.animate, [], [⟨c!"batteryInfo", c!"float"⟩], true, none⟩,
    ⟨.ros, [⟨c!"std_msgs/Float32.h", false⟩, ⟨c!"sensor_msgs/BatteryState.h", false⟩],
      [⟨c!"batteryInfo", c!"sensor_msgs::BatteryState"⟩], false,
      some (some { Catkin.Package.zero with buildtoolDepends := [c!"catkin"], depends := [c!"roscpp", c!"std_msgs", c!"sensor_msgs"] })⟩], []⟩

theorem bmon_says : ConfigXml.Says asciiNames bmonText bmonConfig := (C93_reads _ _ _).1 (by decide +kernel)

example : ¬ ∃ cfg, ConfigXml.Says asciiNames c!"<rtcg-gen><cpp variant=\"other\"/></rtcg-gen>" cfg := by
  rintro ⟨cfg, h⟩
  have h := (C93_reads _ _ _).2 h
  have : Xml.parseConfig asciiNames c!"<rtcg-gen><cpp variant=\"other\"/></rtcg-gen>" = .error (.err .invalidEnum) := by decide +kernel
  rw [this] at h; cases h

/-! ### C94 -/

/-- C94: of two documents that differ by a change of no consequence — unknown attributes, elements or text put in, things with different
names in another order — both say the same configuration, or neither says any. -/
theorem C94_changes (N : XmlNames) (s t r : Str) (x y : ConfigXml.Body) (hs : XmlText.Document N s (.elem r x.1 x.2))
    (ht : XmlText.Document N t (.elem r y.1 y.2)) (h : ConfigXml.ConfigChange x y) (cfg : GenConfig) :
    Xml.parseConfig N s = .ok cfg ↔ Xml.parseConfig N t = .ok cfg := by
  rw [C93_reads, C93_reads]
  constructor
  · rintro ⟨z, hz, hc⟩
    rw [XmlProofs.document_unique hz hs] at hc
    exact ⟨_, ht, (ConfigChange.config_change h r cfg).1 hc⟩
  · rintro ⟨z, hz, hc⟩
    rw [XmlProofs.document_unique hz ht] at hc
    exact ⟨_, hs, (ConfigChange.config_change h r cfg).2 hc⟩

/-- Not vacuous: `<chanel/>` for `<channel/>` is such a change from nothing at all. -/
example : ∃ x y : ConfigXml.Body, XmlText.Document asciiNames c!"<rtcg-gen><cpp/></rtcg-gen>" (.elem c!"rtcg-gen" x.1 x.2) ∧
    XmlText.Document asciiNames c!"<rtcg-gen><cpp><chanel name='a'/></cpp></rtcg-gen>" (.elem c!"rtcg-gen" y.1 y.2) ∧
    ConfigXml.ConfigChange x y := by
  refine ⟨([], [.elem c!"cpp" [] []]), ([], [.elem c!"cpp" [] [.elem c!"chanel" [(c!"name", c!"a")] []]]),
    XmlProofs.parse_iff.1 (by decide +kernel), XmlProofs.parse_iff.1 (by decide +kernel), ?_⟩
  refine .inner (as := []) (a := []) (b := []) (x := ([], [])) (y := ([], [.elem c!"chanel" [(c!"name", c!"a")] []])) (by decide) ?_
  rw [if_pos rfl]
  refine .kids (.put (a := []) (b := []) ?_)
  intro n hn
  cases hn; decide

/-- C94: a comment, a processing instruction or a declaration put anywhere between elements and text, at any depth, makes no difference.
(It would after a carriage return or a `]`.) -/
theorem C94_comments (N : XmlNames) (p pre a m b post r : Str) (g : List Xml → Xml) (k₁ k₂ : List Xml) (hp : XmlText.Prolog N p)
    (h : ConfigXml.Around N pre post g) (ha : XmlText.Content N a k₁) (hm : XmlText.Misc N m) (hb : XmlText.Content N b k₂)
    (hcr : a.getLast? ≠ some '\r') (hbr : a.getLast? ≠ some ']') (cfg : GenConfig) :
    Xml.parseConfig N (p ++ (pre ++ (a ++ m ++ b) ++ post) ++ r) = .ok cfg ↔ Xml.parseConfig N (p ++ (pre ++ (a ++ b) ++ post) ++ r) = .ok cfg := by
  rw [C93_reads, C93_reads]
  exact ConfigSay.comment_same hp h ha hm hb hcr hbr cfg

/-- Not vacuous, and what the texts may look like. -/
example : Xml.parseConfig asciiNames (c!"" ++ (c!"<rtcg-gen><directory>" ++ (c!"a" ++ c!"<!-- x -->" ++ c!"b") ++ c!"</directory></rtcg-gen>") ++ c!"") =
    .ok ⟨[], c!"ab"⟩ := by
  have tag : ∀ n : Str, XmlWrite.plainName n = true → XmlText.Tag asciiNames n n [] := fun n hn =>
    ⟨[], [], by simp, XmlWrite.plainName_qname hn, .nil, by simp [XmlText.Blanks], by simp [XmlText.NotName]⟩
  have text : ∀ c ∈ [(c!"a", 'a'), (c!"b", 'b')], XmlText.Content asciiNames c.1 [.text [c.2]] := by
    intro c hc
    have : XmlText.CharData c.1 [c.2] := by
      rcases List.mem_cons.1 hc with rfl | hc
      · exact XmlWrite.escape_charData c!"a"
      · rw [List.mem_singleton.1 hc]; exact XmlWrite.escape_charData c!"b"
    have h2 : c.1 ≠ [] := by
      rcases List.mem_cons.1 hc with rfl | hc
      · decide
      · rw [List.mem_singleton.1 hc]; decide
    have := XmlText.Content.text (N := asciiNames) this h2 (.inl rfl) .nil
    rwa [List.append_nil] at this
  refine (C94_comments asciiNames _ _ _ _ _ _ _ _ _ _ .nil (.deeper (a := []) (b := []) (k₁ := []) (k₂ := []) (tag c!"rtcg-gen" (by decide))
      (XmlWrite.plainName_local (by decide)) (w := []) (by simp [XmlText.Blanks]) .nil .nil
      (.here (tag c!"directory" (by decide)) (XmlWrite.plainName_local (by decide)) (w := []) (by simp [XmlText.Blanks])))
    (text (c!"a", 'a') (by decide)) (.inr (.inl ⟨c!" x ", rfl, ?_⟩)) (text (c!"b", 'b') (by decide)) (by decide) (by decide) _).2 ?_
  · rintro ⟨a, b, e⟩
    have : (['-', '-'] : Str) <:+: [' ', 'x', ' ', '-'] := ⟨a, b, e.symm⟩
    exact absurd this (by decide)
  · decide +kernel

/-- C94: after the root element anything at all may come, and before the document comments and the like: it makes no difference. -/
theorem C94_outside (N : XmlNames) (m s r : Str) (cfg : GenConfig) (hm : m = [] ∨ XmlText.Misc N m) (h : Xml.parseConfig N s = .ok cfg) :
    Xml.parseConfig N (m ++ s ++ r) = .ok cfg := by
  rw [C93_reads] at h ⊢
  obtain ⟨x, ⟨p, t, r', rfl, hp, he⟩, hc⟩ := h
  refine ⟨x, ⟨m ++ p, t, r' ++ r, by simp, ?_, he⟩, hc⟩
  rcases hm with rfl | hm
  · exact hp
  · exact .misc hm hp

example : Xml.parseConfig asciiNames c!"<rtcg-gen/></rtcg-gen><cpp" = .ok ⟨[], []⟩ :=
  C94_outside asciiNames [] c!"<rtcg-gen/>" c!"</rtcg-gen><cpp" ⟨[], []⟩ (.inl rfl) (by decide +kernel)

/-! ### C95 -/

/-- C95: a configuration can be written as a file exactly if its texts have only characters that XML allows, its variants are known and
its package formats are 64-bit numbers. -/
theorem C95_expressible (N : XmlNames) (cfg : GenConfig) : (∃ text, Xml.parseConfig N text = .ok cfg) ↔ ConfigXml.ConfigFits cfg := by
  constructor
  · rintro ⟨text, h⟩
    exact ConfigSay.says_fits ((C93_reads N text cfg).1 h)
  · intro h
    exact ⟨XmlWrite.configText cfg, XmlWrite.parse_configText h⟩

example : ConfigXml.ConfigFits bmonConfig := (C95_expressible asciiNames _).1 ⟨_, (C93_reads _ _ _).2 bmon_says⟩

/-- There is no file for a directory with a NUL in its name. -/
example : ¬ ∃ text, Xml.parseConfig asciiNames text = .ok ⟨[], [Char.ofNat 0]⟩ := by
  rw [C95_expressible]
  intro h
  exact absurd (h.directory (Char.ofNat 0) (by simp)) (by decide)

/-! ### C96 -/

/-- C96: package.xml, for any package: a well-formed XML document with nothing after its root element, which says the package but for the
characters that XML has no way to write, each replaced by U+FFFD. -/
theorem C96_document (N : XmlNames) (p : Catkin.Package) (hlo : -2 ^ 63 ≤ p.format) (hhi : p.format < 2 ^ 63) :
    ∃ header root attrs kids, Xml.packageText p = header ++ root ∧ XmlText.Prolog N header ∧
      XmlText.Element N root (.elem c!"package" attrs kids) ∧ ConfigXml.PackageIs [(attrs, kids)] (ConfigXml.fitPackage p) := by
  refine ⟨c!"<?xml version=\"1.0\" encoding=\"UTF-8\"?>\n", _, _, _, ?_, ?_, XmlWrite.package_element p, XmlWrite.package_is hlo hhi⟩
  · exact XmlWrite.packageText_eq p
  · refine .misc (t := c!"<?xml version=\"1.0\" encoding=\"UTF-8\"?>") (r := c!"\n") (.inl ?_) ?_
    · refine ⟨c!"xml", c!" ", c!"version=\"1.0\" encoding=\"UTF-8\"", rfl, (XmlWrite.plainName_qname (by decide)).1, ?_, ?_, ?_, ?_, ?_⟩
      · intro c r e; cases e; simp [XmlText.NameChar]
      · simp [XmlText.Blanks]
      · intro c r e; cases e; simp [XmlText.Blanks]
      · rintro ⟨a, b, e⟩
        have : (c!"?>" : Str) <:+: c!"version=\"1.0\" encoding=\"UTF-8\"" := ⟨a, b, e.symm⟩
        exact absurd this (by decide)
      · exact fun _ => (XmlProofs.declOK_iff _).1 (by decide +kernel)
    · exact .text (t := c!"\n") (r := []) (s := c!"\n") (XmlWrite.blanks_charData (by decide)) (by decide) (.inl rfl) .nil

/-- C96: if XML can write it, package.xml says exactly the package; so no two different packages have the same file. -/
theorem C96_faithful (N : XmlNames) (p : Catkin.Package) (h : ConfigXml.PackageFits p) :
    (∃ attrs kids, XmlText.Document N (Xml.packageText p) (.elem c!"package" attrs kids) ∧ ConfigXml.PackageIs [(attrs, kids)] p) ∧
      ∀ q, ConfigXml.PackageFits q → Xml.packageText p = Xml.packageText q → p = q := by
  have key : ∀ q, ConfigXml.PackageFits q →
      ∃ attrs kids, XmlText.Document N (Xml.packageText q) (.elem c!"package" attrs kids) ∧ ConfigXml.PackageIs [(attrs, kids)] q := by
    intro q hq
    obtain ⟨header, root, attrs, kids, e, hp, he, hi⟩ := C96_document N q hq.lo hq.hi
    rw [XmlWrite.fitPackage_self hq] at hi
    exact ⟨attrs, kids, ⟨header, root, [], by rw [e, List.append_nil], hp, he⟩, hi⟩
  refine ⟨key p h, fun q hq e => ?_⟩
  obtain ⟨a1, k1, d1, i1⟩ := key p h
  obtain ⟨a2, k2, d2, i2⟩ := key q hq
  rw [e] at d1
  have := XmlProofs.document_unique d1 d2
  cases this
  exact ConfigProofs.packageIs_unique i1 i2

/-- Not vacuous; awkward characters are escaped. -/
example : ConfigXml.PackageFits { Catkin.Package.zero with format := 2, name := c!"<a> & 'b'", depends := [c!"\"\t]]>", c!""] } :=
  ⟨by decide, by decide, by decide⟩

/-- What XML cannot write is lost: two names, one file. -/
example : Xml.packageText { Catkin.Package.zero with name := [Char.ofNat 1] } = Xml.packageText { Catkin.Package.zero with name := [Char.ofNat 2] } := by
  decide +kernel

/-! ### C97 -/

theorem mem_replaceAll {old new s : Str} {c : Char} (h : c ∈ replaceAll s old new) : c ∈ s ∨ c ∈ new := by
  unfold replaceAll at h
  generalize 0 = k at h
  induction s generalizing k with
  | nil => cases k <;> simp [replaceAllFrom] at h
  | cons d s ih =>
    cases k with
    | succ k =>
      rw [replaceAllFrom] at h
      rcases ih _ h with h | h
      · exact .inl (by simp [h])
      · exact .inr h
    | zero =>
      rw [replaceAllFrom] at h
      split at h
      · rcases List.mem_append.1 h with h | h
        · exact .inr h
        · rcases ih _ h with h | h
          · exact .inl (by simp [h])
          · exact .inr h
      · rcases List.mem_cons.1 h with rfl | h
        · exact .inl (by simp)
        · rcases ih _ h with h | h
          · exact .inl (by simp [h])
          · exact .inr h

theorem forTest_fits {pkg : Option Catkin.Package} (h : ∀ p, pkg = some p → ConfigXml.PackageFits p) {test : Str}
    (ht : ∀ c ∈ test, XmlText.XmlChar c) : ConfigXml.PackageFits (Catkin.forTest pkg test) := by
  have hz : ConfigXml.PackageFits (pkg.getD Catkin.Package.zero) := by
    cases pkg with
    | none => exact ⟨by decide, by decide, by decide⟩
    | some p => exact h p rfl
  unfold Catkin.forTest Catkin.configured
  generalize pkg.getD Catkin.Package.zero = p at hz
  have one : ∀ s d : Str, s ∈ ConfigXml.packageTexts p → (∀ c ∈ d, XmlText.XmlChar c) →
      ∀ c ∈ Catkin.autofillOne s d, XmlText.XmlChar c := by
    intro s d hs hd
    unfold Catkin.autofillOne
    split
    · exact hd
    · exact hz.texts s hs
  have two : ∀ s d : Str, s ∈ ConfigXml.packageTexts p → (∀ c ∈ d, XmlText.XmlChar c) →
      ∀ c ∈ Catkin.expandOne (Catkin.autofillOne s d) test, XmlText.XmlChar c := by
    intro s d hs hd c hc
    rcases mem_replaceAll hc with hc | hc
    · exact one s d hs hd c hc
    · exact ht c hc
  refine ⟨show -2 ^ 63 ≤ (2 : Int) by decide, show (2 : Int) < 2 ^ 63 by decide, ?_⟩
  intro s hs
  simp only [ConfigXml.packageTexts, Catkin.Package.expand, Catkin.Package.autofill, List.mem_append, List.mem_cons, List.not_mem_nil,
    or_false] at hs
  rcases hs with ((rfl | rfl | rfl | rfl | rfl | rfl) | hs) | hs
  · exact two _ _ (by simp [ConfigXml.packageTexts]) (by decide)
  · exact one _ _ (by simp [ConfigXml.packageTexts]) (by decide)
  · exact two _ _ (by simp [ConfigXml.packageTexts]) (by decide)
  · exact two _ _ (by simp [ConfigXml.packageTexts]) (by decide)
  · exact two _ _ (by simp [ConfigXml.packageTexts]) (by decide)
  · exact two _ _ (by simp [ConfigXml.packageTexts]) (by decide)
  · exact hz.texts s (by simp [ConfigXml.packageTexts, hs])
  · exact hz.texts s (by simp [ConfigXml.packageTexts, hs])

/-- C97: after rtcg-gen has generated everything for a configuration it read from a file, there is a package.xml for each test wherever
Catkin packages are asked for, and it is an XML document that says exactly the package configured, filled in and expanded for the test. -/
theorem C97_generated (T : TextLayer) (cwd : Loc) (fs fs' : Fs) (text : Str) (cfg : GenConfig) (out : Str) (suite : StmSuite)
    (hcfg : Xml.parseConfig T.names text = .ok cfg) (hn : PlainNames suite) (hx : ∀ nt ∈ suite.tests, ∀ c ∈ nt.1, XmlText.XmlChar c)
    (hwf : GoMap.WF suite.tests) (hwt : GoMap.WF suite.types) (hv : (cfg.cpps.map (·.variant)).Nodup)
    (hok : Gen.run cwd fs (Gen.ops cfg out suite) = (fs', .ok ()))
    (c : CppConfig.Config) (hc : c ∈ cfg.cpps) (pkg : Option Catkin.Package) (hk : c.catkin = some pkg) (test : Str) (stm : Stm)
    (ht : (test, stm) ∈ suite.tests) :
    ∃ file attrs kids, fs'.file (locate cwd out ++ [c.variant.string, c!"src", test, c!"package.xml"]) = some file ∧
      XmlText.Document T.names (T.text file) (.elem c!"package" attrs kids) ∧
      ConfigXml.PackageIs [(attrs, kids)] (Catkin.forTest pkg test) := by
  have hf := ((C95_expressible T.names cfg).1 ⟨text, hcfg⟩).cpps c hc
  have hp := forTest_fits (pkg := pkg) (fun p hp => hf.catkin p (by rw [hk, hp])) (hx _ ht)
  obtain ⟨⟨attrs, kids, hd, hi⟩, -⟩ := C96_faithful T.names _ hp
  refine ⟨.packageXml (Catkin.forTest pkg test), attrs, kids, ?_, hd, hi⟩
  refine (C66_contents cwd fs fs' cfg out suite hn hwf hwt hv hok).1 c hc ([c!"src", test, c!"package.xml"], _) ?_
  simp only [filesOf, hk, List.mem_append, List.mem_flatMap]
  exact .inl (.inr ⟨_, ht, by simp⟩)

end Rtcg
