import Verif.Props.CppSuite
import Verif.Proofs.CppConvertProg

/-
convert.h as a part of the generated programs.
-/

namespace Rtcg

open Spec Spec.Cpp Program Programs Harness Tmpl

section

variable {U : Unicode} {date : Str} {c : CppConfig.Config} {ts : GoMap Str Validate.Test} {r : StmSuite} {name : Str} {m : Stm}

/-- The channels of a suite -/
def Spec.Cpp.ChannelOf (r : StmSuite) (ch : Str) : Prop := ∃ t, GoMap.get? r.types ch = some t

theorem Spec.Cpp.made_typesAre (h : MadeFrom ts r) : TypesAre r.types (SuiteCarries ts) := by
  obtain ⟨hwf, hval, ⟨b, b', r₀, hb, htys, _⟩, _⟩ := h
  exact typesAre_of_equiv (C36_result b b' ts hwf hval r₀ hb).2.2 htys

theorem Spec.Cpp.entries (h : MadeFrom ts r) (c : CppConfig.Config) (ch : Str) (ct : CppConfig.ChannelType) :
    (ch, ct) ∈ (c.process r.types).channelTypes ↔
      ∃ t, GoMap.get? r.types ch = some (some t) ∧ ct = ⟨some t, (configuredType c ch).getD []⟩ := by
  obtain ⟨_, h2, h3, _⟩ := C48_process c r.types h.2.2.2.1
  constructor
  · intro hm
    have := GoMap.get?_of_mem h2 hm
    rw [h3] at this
    cases hg : GoMap.get? r.types ch with
    | none => rw [hg] at this; cases this
    | some x =>
      rw [hg] at this
      obtain ⟨ty, rfl, _⟩ := (made_typesAre h ch).2 x hg
      exact ⟨ty, rfl, (Option.some.inj this).symm⟩
  · rintro ⟨t, hg, rfl⟩
    apply GoMap.mem_of_get?
    rw [h3, hg]
    rfl

theorem Spec.Cpp.overridden_iff (c : CppConfig.Config) (ch : Str) (t : Option RsType) :
    CppConfig.ChannelType.hasOverride ⟨t, (configuredType c ch).getD []⟩ = true ↔ Overridden c ch := by
  unfold CppConfig.ChannelType.hasOverride Overridden
  simp only [ne_eq, decide_eq_true_eq]
  cases configuredType c ch with
  | none => simp
  | some ty => simp

theorem Spec.Cpp.goodConvert (hU : U.AsciiOK) (h : MadeFrom ts r) (g : ConvertNames U c (ChannelOf r)) : GoodConvert U (c.process r.types) := by
  refine ⟨?_, ?_⟩
  · rw [(C48_process c r.types h.2.2.2.1).1]; exact g.includes
  · rintro ⟨ch, ct⟩ he
    obtain ⟨t, h1, rfl⟩ := (entries h c ch ct).1 he
    obtain ⟨_, g2, g3, g4, g5, _⟩ := Good.channel hU (c := ⟨ch, kIn⟩) (g.words ch ⟨_, h1⟩)
    refine ⟨g2, g3, g4, g5, ?_, t, rfl⟩
    show OneLine ((configuredType c ch).getD [])
    cases hc : configuredType c ch with
    | none => rfl
    | some ty =>
      unfold configuredType at hc
      cases hl : (c.channels.filter (fun x => x.name = ch)).getLast? with
      | none => rw [hl] at hc; cases hc
      | some x =>
        rw [hl] at hc
        cases hc
        exact g.types x (List.mem_filter.1 (List.mem_of_getLast? hl)).1

theorem Spec.Cpp.convert_renders (hv : c.variant = .animate ∨ c.variant = .ros) (h : MadeFrom ts r) :
    render U date (.convertH c.variant (c.process r.types)) = (CppText.convertText U c.variant (c.process r.types), .ok ()) := by
  refine C103_convert_h U date c.variant hv _ ?_
  rintro ⟨ch, ct⟩ he
  obtain ⟨t, _, rfl⟩ := (entries h c ch ct).1 he
  exact ⟨t, rfl⟩

/-- C115: for every suite that rtcg-make-stms gives, if its channels are called by words that differ in more than the case of their first
letter, the templates give a convert.h that can be read as C++: for every channel there are two functions, from messages to values of the type
of the channel and from such values to what is sent; they are defined unless a type is configured for the channel, in which case they are only
declared; and no function is there twice. -/
theorem C115_convert_h (hU : U.AsciiOK) (hv : c.variant = .animate ∨ c.variant = .ros) (h : MadeFrom ts r)
    (g : ConvertNames U c (ChannelOf r)) :
    ∃ text items, render U date (.convertH c.variant (c.process r.types)) = (text, .ok ()) ∧
      parse (lex text) = some items ∧ balanced items [] = true ∧
      (∀ s, s ∈ collect Item.defines [] items ↔
        ∃ ch t, GoMap.get? r.types ch = some (some t) ∧ ¬ Overridden c ch ∧ (s = fromSig U ch t ∨ s = toSig U ch t)) ∧
      (∀ s, s ∈ collect Item.declares [] items ↔
        ∃ ch t, GoMap.get? r.types ch = some (some t) ∧ Overridden c ch ∧ (s = fromSig U ch t ∨ s = toSig U ch t)) ∧
      ((collect Item.defines [] items ++ collect Item.declares [] items).map (·.name)).Nodup := by
  have gc := goodConvert hU h g
  refine ⟨_, _, convert_renders hv h, Ok.parse_convert (Good.ok_env hU hv).toEnv gc, Conv.balanced_convert .., fun s => ?_, fun s => ?_,
    Conv.sigs_nodup _ gc (C48_process c r.types h.2.2.2.1).2.1 ?_⟩
  · rw [(Conv.convert_sigs c.variant gc s).1]
    constructor
    · rintro ⟨⟨ch, ct⟩, he, t, ht, ho, hs⟩
      obtain ⟨t', h1, rfl⟩ := (entries h c ch ct).1 he
      cases ht
      exact ⟨ch, t, h1, fun hc => (by rw [(overridden_iff c ch (some t)).2 hc] at ho; cases ho), hs⟩
    · rintro ⟨ch, t, h1, ho, hs⟩
      refine ⟨(ch, _), (entries h c ch _).2 ⟨t, h1, rfl⟩, t, rfl, ?_, hs⟩
      rw [Bool.eq_false_iff]
      exact fun hc => ho ((overridden_iff c ch (some t)).1 hc)
  · rw [(Conv.convert_sigs c.variant gc s).2]
    constructor
    · rintro ⟨⟨ch, ct⟩, he, t, ht, ho, hs⟩
      obtain ⟨t', h1, rfl⟩ := (entries h c ch ct).1 he
      cases ht
      exact ⟨ch, t, h1, (overridden_iff c ch (some t)).1 ho, hs⟩
    · rintro ⟨ch, t, h1, ho, hs⟩
      exact ⟨(ch, _), (entries h c ch _).2 ⟨t, h1, rfl⟩, t, rfl, (overridden_iff c ch (some t)).2 ho, hs⟩
  · rintro ⟨a, x⟩ ha ⟨b, y⟩ hb e
    obtain ⟨t, h1, _⟩ := (entries h c a x).1 ha
    obtain ⟨t', h2, _⟩ := (entries h c b y).1 hb
    exact g.distinct a b ⟨_, h1⟩ ⟨_, h2⟩ e

/-- The program that convert.h, rtcg.h, rtcg.cpp and the main.cpp of a test make, as the templates give them -/
def Spec.Cpp.GeneratedWhole (U : Unicode) (date : Str) (c : CppConfig.Config) (types : TypeMap) (name : Str) (m : Stm) (P : Prog) : Prop :=
  ∃ conv text, render U date (.convertH c.variant (c.process types)) = (conv, .ok ()) ∧
    render U date (.mainCpp c.variant name m (TransitionContext.make m) (c.process types)) = (text, .ok ()) ∧
    program [conv, TemplateFiles.rtcgH, TemplateFiles.rtcgCpp, text] = some P

theorem Spec.Cpp.program_whole (hU : U.AsciiOK) (hv : c.variant = .animate ∨ c.variant = .ros) (h : MadeFrom ts r)
    (hno : ∀ nt ∈ ts, NoIds nt.2.root) (hm : (name, m) ∈ r.tests) (g : GoodTest U date c name m) (gc : ConvertNames U c (ChannelOf r)) :
    program [CppText.convertText U c.variant (c.process r.types), TemplateFiles.rtcgH, TemplateFiles.rtcgCpp,
      CppText.mainText U c.variant date name m (TransitionContext.make m) (c.process r.types) (Harness.initial m)] =
      some (facts [] (Tree.convertItems U c.variant (c.process r.types)) ++ Sem.Src.prog ⟨U, c.variant, name, m, c.process r.types⟩) := by
  have hp := program_main (Good.ok_env hU hv) (generated hU hv h hno hm g).1
  unfold program at hp ⊢
  have e : ∀ (a : Str) (l : List Str) (i : List Item) (P : Prog), parse (lex a) = some i →
      (l.mapM (fun t => parse (lex t))).map (fun files => files.flatMap (facts [])) = some P →
      ((a :: l).mapM (fun t => parse (lex t))).map (fun files => files.flatMap (facts [])) = some (facts [] i ++ P) := by
    intro a l i P h1 h2
    rw [List.mapM_cons, h1]
    cases hl : l.mapM (fun t => parse (lex t)) with
    | none => rw [hl] at h2; cases h2
    | some is =>
      rw [hl] at h2
      cases h2
      rfl
  exact e _ _ _ _ (Ok.parse_convert (Good.ok_env hU hv).toEnv (goodConvert hU h gc)) hp

theorem Spec.Cpp.generatedWhole (hU : U.AsciiOK) (hv : c.variant = .animate ∨ c.variant = .ros) (h : MadeFrom ts r)
    (hno : ∀ nt ∈ ts, NoIds nt.2.root) (hm : (name, m) ∈ r.tests) (g : GoodTest U date c name m) (gc : ConvertNames U c (ChannelOf r)) :
    GeneratedWhole U date c r.types name m
      (facts [] (Tree.convertItems U c.variant (c.process r.types)) ++ Sem.Src.prog ⟨U, c.variant, name, m, c.process r.types⟩) :=
  ⟨_, _, convert_renders hv h, (generated hU hv h hno hm g).2.1, program_whole hU hv h hno hm g gc⟩

/-- C115: if types are configured for all channels, convert.h adds nothing to the program that rtcg.h, rtcg.cpp and main.cpp make: C107-C112
are about the whole program, with the conversions that the user supplies. -/
theorem C115_configured (hU : U.AsciiOK) (hv : c.variant = .animate ∨ c.variant = .ros) (h : MadeFrom ts r)
    (hno : ∀ nt ∈ ts, NoIds nt.2.root) (hm : (name, m) ∈ r.tests) (g : GoodTest U date c name m) (gc : ConvertNames U c (ChannelOf r))
    (hall : ∀ ch, ChannelOf r ch → Overridden c ch) (P : Prog) (hP : Generated U date c r.types name m P) :
    GeneratedWhole U date c r.types name m P := by
  have hw := generatedWhole hU hv h hno hm g gc
  rw [Conv.facts_overridden ?_] at hw
  · rw [((generated hU hv h hno hm g).2.2 P).1 hP]
    exact hw
  · rintro ⟨ch, ct⟩ he
    obtain ⟨t, h1, rfl⟩ := (entries h c ch ct).1 he
    exact (overridden_iff c ch (some t)).2 (hall ch ⟨_, h1⟩)

/-- The conversions that convert.h defines -/
theorem Spec.Cpp.defaults_iff (h : MadeFrom ts r) (c : CppConfig.Config) (f : Str) : defaults U (c.process r.types) f = true ↔
    ∃ ch, ChannelOf r ch ∧ ¬ Overridden c ch ∧ (f = Rtcg.Cpp.convertFrom U ch ∨ f = Rtcg.Cpp.convertTo U ch) := by
  unfold defaults
  rw [List.any_eq_true]
  constructor
  · rintro ⟨⟨ch, ct⟩, he, h2⟩
    obtain ⟨t, h1, rfl⟩ := (entries h c ch ct).1 he
    simp only [Bool.and_eq_true, Bool.not_eq_true', Bool.or_eq_true, decide_eq_true_eq] at h2
    refine ⟨ch, ⟨_, h1⟩, fun hc => ?_, h2.2⟩
    rw [(overridden_iff c ch (some t)).2 hc] at h2
    cases h2.1
  · rintro ⟨ch, ⟨x, h1⟩, ho, h2⟩
    obtain ⟨t, rfl, _⟩ := (made_typesAre h ch).2 x h1
    refine ⟨(ch, _), (entries h c ch _).2 ⟨t, h1, rfl⟩, ?_⟩
    simp only [Bool.and_eq_true, Bool.not_eq_true', Bool.or_eq_true, decide_eq_true_eq]
    refine ⟨?_, h2⟩
    rw [Bool.eq_false_iff]
    exact fun hc => ho ((overridden_iff c ch (some t)).1 hc)

/-- C115: the animation with convert.h.  The program of all four files does, with any libraries, what the program without convert.h does with
libraries in which the conversions of channels that no type is configured for return their argument: it ends with the same result, or waits
in the same place, in the same state; only calls of those conversions are not recorded. -/
theorem C115_animate (hU : U.AsciiOK) (hv : c.variant = .animate) (h : MadeFrom ts r)
    (hno : ∀ nt ∈ ts, NoIds nt.2.root) (hm : (name, m) ∈ r.tests) (g : GoodTest U date c name m) (gc : ConvertNames U c (ChannelOf r))
    (P : Prog) (hP : Generated U date c r.types name m P) :
    ∃ P' D, GeneratedWhole U date c r.types name m P' ∧
      (∀ f, D f = true ↔ ∃ ch, ChannelOf r ch ∧ ¬ Overridden c ch ∧ (f = Rtcg.Cpp.convertFrom U ch ∨ f = Rtcg.Cpp.convertTo U ch)) ∧
      ∀ (L : Lib) (fuel depth : Nat) (args : List Cpp.Val) (input : List Str) (events : List Cpp.Event),
        (∀ x st, runMain P (L.returning D) fuel depth args input events = .ok x st →
          runMain P' L fuel (depth + 1) args input events = .ok x (st.without D)) ∧
        (∀ st, runMain P (L.returning D) fuel depth args input events = .wait st →
          runMain P' L fuel (depth + 1) args input events = .wait (st.without D)) := by
  have hw := generatedWhole hU (.inl hv) h hno hm g gc
  rw [((generated hU (.inl hv) h hno hm g).2.2 P).1 hP]
  have ha := Conv.adds ⟨U, c.variant, name, m, c.process r.types⟩ (c.process r.types)
  rw [hv] at hw ha ⊢
  refine ⟨_, defaults U (c.process r.types), hw, defaults_iff h c, fun L fuel depth args input events => ⟨fun x st hr => ?_, fun st hr => ?_⟩⟩
  · exact Conv.runMain_ok ha hr
  · exact Conv.runMain_wait ha hr

end

/-! ### examples -/

/-- Types for both channels of `exTwo`. -/
def exTwoCpp (v : Variant) : CppConfig.Config := ⟨v, [⟨c!"my.h", false⟩], [⟨c!"go", c!"G"⟩, ⟨c!"moved", c!"M"⟩], true, none⟩

theorem exTwo_channels {ch : Str} (h : ChannelOf ⟨exTwoTypes, [(c!"t", exTwo)]⟩ ch) : ch = c!"go" ∨ ch = c!"moved" := by
  obtain ⟨t, h⟩ := h
  have := GoMap.mem_of_get? h
  simp only [exTwoTypes, List.mem_cons, List.not_mem_nil, or_false, Prod.mk.injEq] at this
  rcases this with h | h
  · exact .inl h.1
  · exact .inr h.1

theorem exTwo_convert (v : Variant) : ConvertNames asciiUnicode (exCpp v) (ChannelOf ⟨exTwoTypes, [(c!"t", exTwo)]⟩) ∧
    ConvertNames asciiUnicode (exTwoCpp v) (ChannelOf ⟨exTwoTypes, [(c!"t", exTwo)]⟩) := by
  have h1 : ∀ ch, ChannelOf ⟨exTwoTypes, [(c!"t", exTwo)]⟩ ch → WordName ch := by
    intro ch h
    rcases exTwo_channels h with rfl | rfl <;> unfold WordName <;> decide
  have h2 : ∀ a b, ChannelOf ⟨exTwoTypes, [(c!"t", exTwo)]⟩ a → ChannelOf ⟨exTwoTypes, [(c!"t", exTwo)]⟩ b →
      Rtcg.Cpp.convertTo asciiUnicode a = Rtcg.Cpp.convertTo asciiUnicode b → a = b := by
    intro a b ha hb
    rcases exTwo_channels ha with rfl | rfl <;> rcases exTwo_channels hb with rfl | rfl <;> decide
  have h3 : ∀ i ∈ (exCpp v).includes, OneLine i.src := by
    intro i hi
    rw [List.mem_singleton.1 hi]
    unfold OneLine
    decide
  refine ⟨⟨h1, h2, h3, by simp [exCpp]⟩, ⟨h1, h2, h3, ?_⟩⟩
  intro x hx
  simp only [exTwoCpp, List.mem_cons, List.not_mem_nil, or_false] at hx
  rcases hx with rfl | rfl <;> unfold OneLine <;> decide

/-- The hypotheses of C115 are met: with no types configured, convert.h defines the conversion of outputs of this test … -/
example : ∃ text items, render asciiUnicode c!"today" (.convertH .ros ((exCpp .ros).process exTwoTypes)) = (text, .ok ()) ∧
    parse (lex text) = some items ∧ fromSig asciiUnicode c!"moved" ⟨⟨1⟩, ⟨1⟩⟩ ∈ collect Item.defines [] items := by
  obtain ⟨ts, h1, h2⟩ := exTwo_made
  obtain ⟨text, items, h3, h4, _, h5, _⟩ := C115_convert_h (date := c!"today") asciiUnicode_ok (c := exCpp .ros) (.inr rfl) h1 (exTwo_convert .ros).1
  exact ⟨text, items, h3, h4, (h5 _).2 ⟨c!"moved", _, rfl, by decide, .inl rfl⟩⟩

/-- … and with types for both channels it declares it. -/
example : ∃ text items, render asciiUnicode c!"today" (.convertH .ros ((exTwoCpp .ros).process exTwoTypes)) = (text, .ok ()) ∧
    parse (lex text) = some items ∧ fromSig asciiUnicode c!"moved" ⟨⟨1⟩, ⟨1⟩⟩ ∈ collect Item.declares [] items := by
  obtain ⟨ts, h1, h2⟩ := exTwo_made
  obtain ⟨text, items, h3, h4, _, _, h5, _⟩ := C115_convert_h (date := c!"today") asciiUnicode_ok (c := exTwoCpp .ros) (.inr rfl) h1 (exTwo_convert .ros).2
  exact ⟨text, items, h3, h4, (h5 _).2 ⟨c!"moved", _, rfl, by decide, .inl rfl⟩⟩

theorem exTwoCpp_good (v : Variant) (hv : v = .animate ∨ v = .ros) : GoodTest asciiUnicode c!"today" (exTwoCpp v) c!"t" exTwo :=
  ⟨(exTwo_good v hv).toWellNamed, (exTwo_good v hv).date, (exTwo_good v hv).name, (exTwo_good v hv).includes⟩

/-- With types for both channels, the program of all files fails when the trace happens (C108). -/
example : ∃ P st', GeneratedWhole asciiUnicode c!"today" (exTwoCpp .ros) exTwoTypes c!"t" exTwo P ∧
    runMain P exLib 0 6 [.int 0, .void] [] (exEvents.map eventOf) = .ok (.int 1) st' := by
  obtain ⟨ts, h1, h2⟩ := exTwo_made
  obtain ⟨_, _, h3⟩ := generated asciiUnicode_ok (c := exTwoCpp .ros) (.inr rfl) h1 h2 (List.mem_singleton.2 rfl) (exTwoCpp_good .ros (.inr rfl))
  have hP := (h3 _).2 rfl
  obtain ⟨st', h4, _⟩ := C108_ros asciiUnicode_ok (c := exTwoCpp .ros) rfl h1 h2 (List.mem_singleton.2 rfl) (exTwoCpp_good .ros (.inr rfl)) hP
    (exLib_provides .ros) exEvents exEvents_ok (.int 0) .void [] 0 (Nat.le_refl 6)
  exact ⟨_, st', C115_configured asciiUnicode_ok (.inr rfl) h1 h2 (List.mem_singleton.2 rfl) (exTwoCpp_good .ros (.inr rfl)) (exTwo_convert .ros).2
    (fun ch h => by rcases exTwo_channels h with rfl | rfl <;> decide) _ hP, h4⟩

/-- With none, the animation of all files needs no conversions. -/
example : ∃ P', GeneratedWhole asciiUnicode c!"today" (exCpp .animate) exTwoTypes c!"t" exTwo P' := by
  obtain ⟨ts, h1, h2⟩ := exTwo_made
  obtain ⟨_, _, h3⟩ := generated asciiUnicode_ok (c := exCpp .animate) (.inl rfl) h1 h2 (List.mem_singleton.2 rfl) (exTwo_good .animate (.inl rfl))
  obtain ⟨P', _, h4, _⟩ := C115_animate asciiUnicode_ok (c := exCpp .animate) rfl h1 h2 (List.mem_singleton.2 rfl) (exTwo_good .animate (.inl rfl))
    (exTwo_convert .animate).1 _ ((h3 _).2 rfl)
  exact ⟨P', h4⟩

end Rtcg
