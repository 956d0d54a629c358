import Verif.Proofs.Lang

/-
Properties C01–C11: texts of enumerations, channels, values and events; equality; types.
-/

namespace Rtcg
open Rtcg.Spec

/-! ### C01 -/

theorem C01_channel_kind : EnumText Kind.string Kind.parse Kind.val "Kind".toList kindMembers := kind_enumText

theorem C01_outcome : EnumText Outcome.string Outcome.parse Outcome.val "Outcome".toList outcomeMembers :=
  enumText_of_tables Outcome.tables Outcome.mk Outcome.val (fun _ => rfl) (fun _ => rfl)
    (by decide) (by decide) (by decide) _
    (by rintro ⟨x⟩ name; simp [outcomeMembers, Outcome.tables]; tauto)
    (by intro x name; simp [Outcome.tables]; tauto)

theorem C01_variant : EnumText Variant.string Variant.parse Variant.val "Variant".toList variantMembers :=
  enumText_of_tables Variant.tables Variant.mk Variant.val (fun _ => rfl) (fun _ => rfl)
    (by decide) (by decide) (by decide) _
    (by rintro ⟨x⟩ name; simp [variantMembers, Variant.tables]; tauto)
    (by intro x name; simp [Variant.tables]; tauto)

theorem C01_type_kind : EnumText RsKind.string RsKind.parse RsKind.val "Kind".toList rsKindMembers :=
  enumText_of_tables RsKind.tables RsKind.mk RsKind.val (fun _ => rfl) (fun _ => rfl)
    (by decide) (by decide) (by decide) _
    (by rintro ⟨x⟩ name; simp [rsKindMembers, RsKind.tables]; tauto)
    (by intro x name; simp [RsKind.tables]; tauto)

theorem C01_domain : EnumText Domain.string Domain.parse Domain.val "ArithmosDomain".toList domainMembers :=
  enumText_of_tables Domain.tables Domain.mk Domain.val (fun _ => rfl) (fun _ => rfl)
    (by decide) (by decide) (by decide) _
    (by rintro ⟨x⟩ name; simp [domainMembers, Domain.tables]; tauto)
    (by intro x name; simp [Domain.tables]; tauto)

/-- The constants the rest of the code uses are the members with these texts. -/
theorem C01_named :
    (Kind.in_.string = "in".toList ∧ Kind.out.string = "out".toList ∧ Kind.call.string = "call".toList) ∧
    (Outcome.unset.string = "unset".toList ∧ Outcome.inc.string = "inc".toList ∧ Outcome.fail.string = "fail".toList ∧
      Outcome.pass.string = "pass".toList) ∧
    (Variant.animate.string = "animate".toList ∧ Variant.ros.string = "ros".toList) ∧
    (RsKind.empty.string = "empty".toList ∧ RsKind.arithmos.string = "arithmos".toList ∧ RsKind.enum.string = "enum".toList) ∧
    (Domain.unknown.string = "unknown".toList ∧ Domain.nat.string = "nat".toList ∧ Domain.int.string = "int".toList ∧
      Domain.real.string = "real".toList) := by decide

/-- Not vacuous: mixed case is accepted, a foreign word is not, and 7 is not a declared kind. -/
example : Kind.parse c!"CaLL" = .ok .call ∧ Kind.parse c!"calls" = .error (.err .invalidEnum) ∧
    Kind.string ⟨7⟩ = c!"Kind(7)" := by decide

/-! ### C02 -/

/-- A channel survives text exactly when its name is non-empty, without surrounding white space and dots, and
its kind is declared – whatever the receiving channel held. -/
theorem C02_channel_roundtrip (c old : Channel) :
    Channel.unmarshalText old c.marshalText = (c, none) ↔ GoodChannel c := by
  have h0 : Channel.unmarshalText old c.marshalText = (c, none) ↔
      ∃ r, Channel.unmarshalTextWithRemainder old c.marshalText = (c, .ok r) := by
    unfold Channel.unmarshalText
    rcases Channel.unmarshalTextWithRemainder old c.marshalText with ⟨c', _ | r⟩ <;> simp
  rw [h0]
  constructor
  · rintro ⟨r, h⟩
    have hr := (channel_unmarshal_ok_iff _ _ _ _).1 h
    obtain ⟨h1, h2, h3⟩ := readsAsChannel_facts hr
    refine ⟨⟨?_, h1, h2⟩, h3⟩
    intro hn
    obtain ⟨f0, f1, _, _, _, _, ht⟩ := hr
    have : c.marshalText = [] := by simp [Channel.marshalText, hn]
    rw [this] at ht
    cases r <;> simp at ht
  · intro h
    exact ⟨none, (channel_unmarshal_ok_iff _ _ _ _).2 (readsAsChannel_marshal h)⟩

example : GoodChannel ⟨c!"obstacle", .out⟩ := by
  refine ⟨⟨by decide, noOuterSpace_of_forall (by decide), by decide⟩, by decide⟩

/-! ### C03 -/

/-- Exactly which texts are accepted as a channel (with a value part), and what is read. -/
theorem C03_channel_acceptance (old : Channel) (text : Str) :
    (∀ c rest, Channel.unmarshalTextWithRemainder old text = (c, .ok rest) ↔ ReadsAsChannel text c rest) ∧
    ('.' ∉ text → Channel.unmarshalTextWithRemainder old text = (old, .error (.err (.badFieldCount 1)))) ∧
    ('.' ∈ text → (¬ ∃ c rest, ReadsAsChannel text c rest) →
      (Channel.unmarshalTextWithRemainder old text).2 = .error (.err .invalidEnum)) :=
  ⟨channel_unmarshal_ok_iff old text, channel_unmarshal_noDot old text, channel_unmarshal_badKind old text⟩

/-- The same for events: the text after the second dot, if there is one, is read as the value. -/
theorem C03_event_acceptance (text : Str) (e : Event) :
    Event.parse text = .ok e ↔
      (ReadsAsChannel text e.channel none ∧ e.value = .none) ∨
      (∃ r, ReadsAsChannel text e.channel (some r) ∧ Value.unmarshalText r = .ok e.value) :=
  event_parse_ok_iff text e

/-- Not vacuous: a padded text with dots in its value. -/
example : Channel.unmarshalTextWithRemainder Channel.zero c!" a . IN .x.y" =
    (⟨c!"a", .in_⟩, .ok (some c!"x.y")) := by decide

/-! ### C04 -/

/-- An integer value prints as its usual decimal text, and that text parses back to it. -/
theorem C04_int_roundtrip (i : Int64) :
    ∃ t, (Value.int i).marshalText = .ok t ∧ CanonicalInt t i.toInt ∧ Value.unmarshalText t = .ok (.int i) := by
  refine ⟨formatInt i, rfl, canonicalInt_formatInt i, ?_⟩
  obtain ⟨t, h1, h2⟩ := value_roundtrip (v := .int i) trivial
  cases h1; exact h2

/-- A text parses as the integer `i` exactly when, stripped, it denotes `i` in decimal. -/
theorem C04_int_parse (s : Str) (i : Int64) :
    Value.unmarshalText s = .ok (.int i) ↔ ∃ t, Stripped s t ∧ DenotesInt t i.toInt := by
  rw [value_unmarshal_eq]
  constructor
  · intro h
    refine ⟨trimSpace s, (trimSpace_eq_iff _ _).1 rfl, ?_⟩
    rw [← parseInt_eq_some_iff]
    cases hp : parseInt (trimSpace s) with
    | none => rw [hp] at h; cases h
    | some j => rw [hp] at h; cases h; rfl
  · rintro ⟨t, h1, h2⟩
    have := (trimSpace_eq_iff _ _).2 h1; subst this
    rw [(parseInt_eq_some_iff _ _).2 h2]

example : Value.unmarshalText c!" +0042 " = .ok (.int 42) ∧
    Value.unmarshalText c!"-9223372036854775808" = .ok (.int Int64.minValue) ∧
    Value.unmarshalText c!"9223372036854775808" = .ok (.enum c!"9223372036854775808") := by decide +kernel

/-! ### C05 -/

/-- Parsing a value never fails, and the result is classified by the number grammar. -/
theorem C05_value_parse (s : Str) :
    ∃ t, Stripped s t ∧
      ((∃ i : Int64, DenotesInt t i.toInt ∧ Value.unmarshalText s = .ok (.int i)) ∨
       (¬ ReadsAsInt64 t ∧ Value.unmarshalText s = .ok (.enum t))) := by
  refine ⟨trimSpace s, (trimSpace_eq_iff _ _).1 rfl, ?_⟩
  rw [value_unmarshal_eq]
  cases hp : parseInt (trimSpace s) with
  | none => exact Or.inr ⟨(parseInt_eq_none_iff _).1 hp, rfl⟩
  | some i => exact Or.inl ⟨i, (parseInt_eq_some_iff _ _).1 hp, rfl⟩

/-- No text produces an error (in particular not `ErrUnsupportedValueType`). -/
theorem C05_no_error (s : Str) (f : Fail) : Value.unmarshalText s ≠ .error f := by
  rw [value_unmarshal_eq]; simp

example : Value.unmarshalText c!"" = .ok (.enum []) ∧ Value.unmarshalText c!" 1_0" = .ok (.enum c!"1_0") := by
  decide

/-! ### C06 -/

theorem C06_value_roundtrip (v : Value) :
    (∃ t, v.marshalText = .ok t ∧ Value.unmarshalText t = .ok v) ↔ GoodValue v := by
  constructor
  · rintro ⟨t, _, h⟩; exact value_unmarshal_good h
  · exact value_roundtrip

theorem C06_absent_value : Value.none.marshalText = .error (.err .marshalAbsentValue) := rfl

/-- Not vacuous, in both directions. -/
example : GoodValue (.enum c!"red") ∧ ¬ GoodValue (.enum c!"42") := by
  refine ⟨⟨noOuterSpace_of_forall (by decide), ?_⟩, ?_⟩
  · rw [← parseInt_eq_none_iff]; decide
  · rintro ⟨_, h⟩; rw [← parseInt_eq_none_iff] at h; exact absurd h (by decide)

/-! ### C07 -/

theorem C07_event_roundtrip (e : Event) :
    (∃ t, e.marshalText = .ok t ∧ Event.parse t = .ok e) ↔ GoodEvent e :=
  ⟨fun ⟨_, h1, h2⟩ => goodEvent_of_roundtrip h1 h2, event_roundtrip⟩

/-- Marshalling an event never fails. -/
theorem C07_marshal_total (e : Event) : ∃ t, e.marshalText = .ok t := event_marshal_total e

/-- Whatever was read round-trips, except events with an empty channel name. -/
theorem C07_read_events (t : Str) (e : Event) (h : Event.parse t = .ok e) :
    GoodEvent e ↔ e.channel.name ≠ [] := by
  rw [event_parse_ok_iff] at h
  have hf : NoOuterSpace e.channel.name ∧ '.' ∉ e.channel.name ∧
      (e.channel.kind = .in_ ∨ e.channel.kind = .out ∨ e.channel.kind = .call) := by
    rcases h with ⟨h, _⟩ | ⟨r, h, _⟩ <;> exact readsAsChannel_facts h
  have hval : e.value = .none ∨ GoodValue e.value := by
    rcases h with ⟨_, h⟩ | ⟨r, _, h⟩
    · exact Or.inl h
    · exact Or.inr (value_unmarshal_good h)
  exact ⟨fun h => h.1.1.1, fun h => ⟨⟨⟨h, hf.1, hf.2.1⟩, hf.2.2⟩, hval⟩⟩

/-- An event with an empty channel name is accepted, and printed as a text that is not. -/
theorem C07_empty_name_witness : ∃ t e t', Event.parse t = .ok e ∧ e.marshalText = .ok t' ∧
    ∃ f, Event.parse t' = .error f :=
  ⟨c!".in.5", ⟨⟨[], .in_⟩, .int 5⟩, c!".5", by decide, by decide, .err .invalidEnum, by decide⟩

example : GoodEvent (.input c!"speed" (.int 3)) :=
  ⟨⟨⟨by decide, noOuterSpace_of_forall (by decide), by decide⟩, by decide⟩, Or.inr trivial⟩

/-! ### C08 (false of the code; the exact dependence on the receiver is proved) -/

/-- The claim "the result does not depend on the receiver" is false. -/
theorem C08_receiver_independence_false :
    ¬ ∀ (old old' : Event) (text : Str), (Event.unmarshalText old text).2 = none →
        (Event.unmarshalText old text).1 = (Event.unmarshalText old' text).1 := by
  intro h
  exact absurd (h ⟨Channel.zero, .int 1⟩ Event.zero c!"a.in" (by decide)) (by decide)

/-- Full statement (false, see above): `unmarshalText old text` is independent of `old`.
Proved: success, error and the channel are independent of the receiver; the value is the text's value when it
has one, and otherwise what the receiver held.  Missing: independence for texts without a value field. -/
theorem C08_receiver_independence_partial (old : Event) (text : Str) :
    (∀ e, Event.parse text = .ok e →
      Event.unmarshalText old text =
        (⟨e.channel, if e.value = .none then old.value else e.value⟩, none)) ∧
    (∀ f, Event.parse text = .error f → (Event.unmarshalText old text).2 = some f) := by
  constructor
  · intro e h
    rw [event_parse_ok_iff] at h
    rw [event_unmarshal_ok_iff]
    rcases h with ⟨h1, h2⟩ | ⟨r, h1, h2⟩
    · left; exact ⟨h1, by simp [h2]⟩
    · right
      refine ⟨r, h1, ?_⟩
      have : e.value ≠ .none := by
        intro hn; rw [value_unmarshal_eq, hn] at h2
        split at h2 <;> cases h2
      simp [this, h2]
  · intro f h
    unfold Event.parse Event.unmarshalText at h
    unfold Event.unmarshalText
    rcases hz : Channel.unmarshalTextWithRemainder Event.zero.channel text with ⟨c, _ | _ | r⟩
    · rw [hz] at h
      simp at h; subst h
      rcases ho : Channel.unmarshalTextWithRemainder old.channel text with ⟨c', g | r⟩
      · simp only [Option.some.injEq]
        -- both errors are determined by the text
        have e1 := congrArg Prod.snd hz
        have e2 := congrArg Prod.snd ho
        by_cases hd : '.' ∈ text
        · have hn : ¬ ∃ c rest, ReadsAsChannel text c rest := by
            rintro ⟨c2, r2, h2⟩
            rw [(channel_unmarshal_ok_iff _ _ _ _).2 h2] at hz; simp at hz
          rw [channel_unmarshal_badKind _ _ hd hn] at e1 e2
          simp [throwErr] at e1 e2; rw [← e1, ← e2]
        · rw [channel_unmarshal_noDot _ _ hd] at e1 e2
          simp [throwErr] at e1 e2; rw [← e1, ← e2]
      · rw [channel_unmarshal_ok_indep ho] at hz; simp at hz
    · rw [hz] at h; simp at h
    · rw [hz] at h
      simp only [value_unmarshal_eq] at h
      cases h

example : Event.unmarshalText ⟨⟨c!"old", .out⟩, .int 9⟩ c!"a.in.b" = (⟨⟨c!"a", .in_⟩, .enum c!"b"⟩, none) := by
  decide

/-! ### C09 (channels, values, events; traces in Props/Trace.lean) -/

theorem C09_channel_equals (c d : Channel) : c.equals d = true ↔ c = d := by
  cases c; cases d; simp [Channel.equals]

theorem C09_value_equals (v w : Value) : v.equals w = true ↔ v = w := by
  cases v <;> cases w <;> simp [Value.equals, Value.isEmpty]

theorem C09_event_equals (e f : Event) : e.equals f = true ↔ e = f := by
  cases e; cases f; simp [Event.equals, C09_channel_equals, C09_value_equals]

example : Value.equals (.int 1) (.enum c!"1") = false := by decide

/-! ### C10 -/

/-- Which types print, and as what. -/
theorem C10_type_print (t : RsType) (s : Str) :
    t.marshalText = .ok s ↔
      (t.kind = ⟨0⟩ ∧ s = "()".toList) ∨ (t.kind = ⟨2⟩ ∧ s = "enum".toList) ∨
      (t.kind = ⟨1⟩ ∧ ((t.domain = ⟨1⟩ ∧ s = "nat".toList) ∨ (t.domain = ⟨2⟩ ∧ s = "int".toList) ∨
        (t.domain = ⟨3⟩ ∧ s = "real".toList))) := by
  obtain ⟨k, d⟩ := t
  unfold RsType.marshalText RsType.tryString
  simp only [RsType.isEmpty, RsType.isNat, RsType.isInt, RsType.isReal, RsType.isEnum, RsType.isArithmos,
    RsKind.empty, RsKind.arithmos, RsKind.enum, Domain.nat, Domain.int, Domain.real, decide_eq_true_eq]
  have cc : ∀ a b : Str, (Except.ok a : Res Str) = .ok b ↔ b = a := by
    intro a b; constructor
    · intro h; cases h; rfl
    · rintro rfl; rfl
  by_cases h0 : k = ⟨0⟩
  · subst h0; simp [cc]
  · by_cases h1 : k = ⟨1⟩
    · subst h1
      by_cases d1 : d = ⟨1⟩
      · subst d1; simp [cc]
      · by_cases d2 : d = ⟨2⟩
        · subst d2; simp [cc]
        · by_cases d3 : d = ⟨3⟩
          · subst d3; simp [cc]
          · simp [d1, d2, d3, throwErr]
    · by_cases h2 : k = ⟨2⟩
      · subst h2; simp [cc]
      · simp [h0, h1, h2, throwErr]

/-- Marshalling fails exactly for arithmetic types of undeclared or unknown domain and for undeclared kinds. -/
theorem C10_type_print_error (t : RsType) :
    t.marshalText = .error (.err .typeMarshal) ↔
      (t.kind = ⟨1⟩ ∧ t.domain ≠ ⟨1⟩ ∧ t.domain ≠ ⟨2⟩ ∧ t.domain ≠ ⟨3⟩) ∨
      (t.kind ≠ ⟨0⟩ ∧ t.kind ≠ ⟨1⟩ ∧ t.kind ≠ ⟨2⟩) := by
  have h : t.marshalText = .error (.err .typeMarshal) ↔ ¬ ∃ s, t.marshalText = .ok s := by
    unfold RsType.marshalText
    cases t.tryString <;> simp [throwErr]
  rw [h]
  simp only [C10_type_print]
  constructor
  · intro hn
    by_cases h0 : t.kind = ⟨0⟩
    · exact absurd ⟨_, Or.inl ⟨h0, rfl⟩⟩ hn
    · by_cases h1 : t.kind = ⟨1⟩
      · left
        refine ⟨h1, ?_, ?_, ?_⟩
        · intro h'; exact hn ⟨_, Or.inr (Or.inr ⟨h1, Or.inl ⟨h', rfl⟩⟩)⟩
        · intro h'; exact hn ⟨_, Or.inr (Or.inr ⟨h1, Or.inr (Or.inl ⟨h', rfl⟩)⟩)⟩
        · intro h'; exact hn ⟨_, Or.inr (Or.inr ⟨h1, Or.inr (Or.inr ⟨h', rfl⟩)⟩)⟩
      · by_cases h2 : t.kind = ⟨2⟩
        · exact absurd ⟨_, Or.inr (Or.inl ⟨h2, rfl⟩)⟩ hn
        · exact Or.inr ⟨h0, h1, h2⟩
  · rintro h ⟨s, hs⟩
    rcases hs with ⟨h0, _⟩ | ⟨h0, _⟩ | ⟨h0, h1⟩
    · rcases h with ⟨h, _⟩ | ⟨h, _⟩
      · rw [h] at h0; exact absurd h0 (by decide)
      · exact h h0
    · rcases h with ⟨h, _⟩ | ⟨_, _, h⟩
      · rw [h] at h0; exact absurd h0 (by decide)
      · exact h h0
    · rcases h with ⟨_, n1, n2, n3⟩ | ⟨_, h, _⟩
      · rcases h1 with ⟨h, _⟩ | ⟨h, _⟩ | ⟨h, _⟩
        · exact n1 h
        · exact n2 h
        · exact n3 h
      · exact h h0

/-- Which texts are read as which type. -/
theorem C10_type_parse (s : Str) (t : RsType) :
    RsType.unmarshalText s = .ok t ↔ ∃ name, (t, name) ∈ typeTexts ∧ SameIgnoringCase s name := by
  have key : ∀ lit : Str, (∀ d ∈ lit, IsLowerish d) → (toLower s = lit ↔ SameIgnoringCase s lit) :=
    fun lit h => toLower_eq_iff h
  have k0 := key c!"()" (by unfold IsLowerish; decide)
  have k1 := key c!"enum" (by unfold IsLowerish; decide)
  have k2 := key c!"nat" (by unfold IsLowerish; decide)
  have k3 := key c!"int" (by unfold IsLowerish; decide)
  have k4 := key c!"real" (by unfold IsLowerish; decide)
  have hx : (∃ name, (t, name) ∈ typeTexts ∧ SameIgnoringCase s name) ↔
      (t = ⟨⟨0⟩, ⟨0⟩⟩ ∧ toLower s = c!"()") ∨ (t = ⟨⟨2⟩, ⟨0⟩⟩ ∧ toLower s = c!"enum") ∨
      (t = ⟨⟨1⟩, ⟨1⟩⟩ ∧ toLower s = c!"nat") ∨ (t = ⟨⟨1⟩, ⟨2⟩⟩ ∧ toLower s = c!"int") ∨
      (t = ⟨⟨1⟩, ⟨3⟩⟩ ∧ toLower s = c!"real") := by
    rw [k0, k1, k2, k3, k4]
    simp only [typeTexts, List.mem_cons, Prod.mk.injEq, List.not_mem_nil, or_false]
    constructor
    · rintro ⟨name, h | h | h | h | h, hs⟩ <;> obtain ⟨rfl, rfl⟩ := h
      · exact Or.inl ⟨rfl, hs⟩
      · exact Or.inr (Or.inl ⟨rfl, hs⟩)
      · exact Or.inr (Or.inr (Or.inl ⟨rfl, hs⟩))
      · exact Or.inr (Or.inr (Or.inr (Or.inl ⟨rfl, hs⟩)))
      · exact Or.inr (Or.inr (Or.inr (Or.inr ⟨rfl, hs⟩)))
    · rintro (h | h | h | h | h)
      · exact ⟨_, Or.inl ⟨h.1, rfl⟩, h.2⟩
      · exact ⟨_, Or.inr (Or.inl ⟨h.1, rfl⟩), h.2⟩
      · exact ⟨_, Or.inr (Or.inr (Or.inl ⟨h.1, rfl⟩)), h.2⟩
      · exact ⟨_, Or.inr (Or.inr (Or.inr (Or.inl ⟨h.1, rfl⟩))), h.2⟩
      · exact ⟨_, Or.inr (Or.inr (Or.inr (Or.inr ⟨h.1, rfl⟩))), h.2⟩
  rw [hx]
  unfold RsType.unmarshalText
  simp only [RsKind.empty, RsKind.arithmos, RsKind.enum, Domain.unknown, Domain.nat, Domain.int, Domain.real]
  have cc : ∀ a b : RsType, (Except.ok a : Res RsType) = .ok b ↔ b = a := by
    intro a b; constructor
    · intro h; cases h; rfl
    · rintro rfl; rfl
  generalize toLower s = l
  split
  · rename_i h; subst h; simp [cc]
  · split
    · rename_i h; subst h; simp [cc]
    · split
      · rename_i h; subst h; simp [cc]
      · split
        · rename_i h; subst h; simp [cc]
        · split
          · rename_i h; subst h; simp [cc]
          · simp_all [throwErr]

/-- Every type the code builds, if it prints at all, reads back as itself. -/
theorem C10_type_roundtrip (t : RsType) (s : Str) (hg : GoodType t) (h : t.marshalText = .ok s) :
    RsType.unmarshalText s = .ok t := by
  obtain ⟨k, d⟩ := t
  rw [C10_type_print] at h
  simp only at h
  unfold GoodType at hg
  simp only at hg
  rcases h with ⟨rfl, rfl⟩ | ⟨rfl, rfl⟩ | ⟨rfl, ⟨rfl, rfl⟩ | ⟨rfl, rfl⟩ | ⟨rfl, rfl⟩⟩
  · have := hg (by decide); subst this; decide
  · have := hg (by decide); subst this; decide
  · decide
  · decide
  · decide

/-- C34: what counts as the type of a value, as it is printed: `()` for no value, `enum` for a text, and the smallest of the numeric types
for a number. -/
theorem C34_value_types (v : Value) (s : Str) : v.type.marshalText = .ok s ↔
    (v = .none ∧ s = c!"()") ∨ (∃ e, v = .enum e ∧ s = c!"enum") ∨ (∃ i : Int64, v = .int i ∧ 0 ≤ i.toInt ∧ s = c!"nat") ∨
    (∃ i : Int64, v = .int i ∧ i.toInt < 0 ∧ s = c!"int") := by
  cases v with
  | none =>
    rw [show (Value.none).type.marshalText = .ok c!"()" by decide]
    simp [eq_comm]
  | enum e =>
    rw [show (Value.enum e).type.marshalText = .ok c!"enum" by rfl]
    simp [eq_comm]
  | int i =>
    by_cases h : 0 ≤ i.toInt
    · rw [show (Value.int i).type = RsType.arithmos .nat by simp [Value.type, h],
        show (RsType.arithmos .nat).marshalText = .ok c!"nat" by decide]
      have h' : ¬ i.toInt < 0 := by omega
      simp [h, h', eq_comm]
    · rw [show (Value.int i).type = RsType.arithmos .int by simp [Value.type, h],
        show (RsType.arithmos .int).marshalText = .ok c!"int" by decide]
      have h' : i.toInt < 0 := by omega
      simp [h, h', eq_comm]

/-- The value types are printable and read back. -/
example (v : Value) : ∃ s, v.type.marshalText = .ok s ∧ RsType.unmarshalText s = .ok v.type := by
  cases v with
  | none => exact ⟨c!"()", by decide, by decide⟩
  | enum s => exact ⟨c!"enum", (by decide : RsType.enum.marshalText = _), (by decide : _ = Except.ok RsType.enum)⟩
  | int i =>
    by_cases h : 0 ≤ i.toInt
    · have : (Value.int i).type = RsType.arithmos .nat := by simp [Value.type, h]
      rw [this]; exact ⟨c!"nat", by decide, by decide⟩
    · have : (Value.int i).type = RsType.arithmos .int := by simp [Value.type, h]
      rw [this]; exact ⟨c!"int", by decide, by decide⟩

/-! ### C11 -/

/-- Unification yields the least upper bound, whenever it succeeds. -/
theorem C11_unify_lub (a b c : Option RsType) (ha : ∀ t, a = some t → GoodType t) (hb : ∀ t, b = some t → GoodType t)
    (h : RsType.unify a b = .ok c) : IsLub a b c := by
  cases a with
  | none =>
    simp [RsType.unify] at h; subst h
    refine ⟨trivial, ?_, fun d _ h => h⟩
    cases b with
    | none => trivial
    | some y => exact Or.inl rfl
  | some x =>
    cases b with
    | none =>
      simp [RsType.unify] at h; subst h
      exact ⟨Or.inl rfl, trivial, fun d h _ => h⟩
    | some y =>
      have gx := ha x rfl
      have gy := hb y rfl
      obtain ⟨kx, dx⟩ := x
      obtain ⟨ky, dy⟩ := y
      simp only [RsType.unify] at h
      split at h
      · cases h
      · rename_i hk
        simp only [ne_eq, Decidable.not_not] at hk
        subst hk
        split at h
        · rename_i hk'
          subst hk'
          cases h
          simp only [RsKind.arithmos, RsType.maxDomain]
          by_cases hle : dx.val ≤ dy.val
          · simp only [hle, if_true]
            refine ⟨Or.inr ⟨rfl, rfl, hle⟩, Or.inl rfl, fun d _ h => h⟩
          · simp only [hle, if_false]
            refine ⟨Or.inl rfl, Or.inr ⟨rfl, rfl, ?_⟩, fun d h _ => h⟩
            simp only [UInt8.le_iff_toNat_le] at hle ⊢
            show dy.val.toNat ≤ dx.val.toNat
            omega
        · rename_i hk'
          cases h
          have hk'' : kx ≠ ⟨1⟩ := hk'
          have e1 := gx hk''
          have e2 := gy hk''
          simp only at e1 e2
          subst e1 e2
          exact ⟨Or.inl rfl, Or.inl rfl, fun d h _ => h⟩

/-- Unification fails exactly on two types of different kinds, and then they have no common supertype. -/
theorem C11_unify_error (a b : Option RsType) :
    (RsType.unify a b = .error (.err .unifyDifferentKinds) ↔
      ∃ x y, a = some x ∧ b = some y ∧ x.kind ≠ y.kind) ∧
    ((∃ f, RsType.unify a b = .error f) → ∀ d, SubType? a d → ¬ SubType? b d) := by
  constructor
  · cases a with
    | none => simp [RsType.unify]
    | some x =>
      cases b with
      | none => simp [RsType.unify]
      | some y =>
        by_cases hk : x.kind = y.kind
        · by_cases h1 : x.kind = .arithmos <;> simp [RsType.unify, hk] <;> split <;> simp
        · simp [RsType.unify, hk, throwErr]
  · rw [unify_error_iff]
    rintro ⟨x, y, rfl, rfl, hk⟩ d h1 h2
    cases d with
    | none => exact h1
    | some d =>
      have hx : x.kind = d.kind := by
        rcases h1 with rfl | ⟨h, h', _⟩
        · rfl
        · rw [h, h']
      have hy : y.kind = d.kind := by
        rcases h2 with rfl | ⟨h, h', _⟩
        · rfl
        · rw [h, h']
      exact hk (hx.trans hy.symm)

/-- Unification is commutative, errors included. -/
theorem C11_unify_comm (a b : Option RsType) (ha : ∀ t, a = some t → GoodType t)
    (hb : ∀ t, b = some t → GoodType t) : RsType.unify a b = RsType.unify b a := by
  cases a with
  | none => cases b <;> rfl
  | some x =>
    cases b with
    | none => rfl
    | some y => exact unify_comm_some (ha x rfl) (hb y rfl)

/-- Unification is associative, errors included. -/
theorem C11_unify_assoc (a b c : Option RsType) :
    (do let d ← RsType.unify a b; RsType.unify d c) = (do let d ← RsType.unify b c; RsType.unify a d) :=
  unify_assoc a b c

/-- Unification is idempotent on types the code builds. -/
theorem C11_unify_idem (a : Option RsType) (ha : ∀ t, a = some t → GoodType t) : RsType.unify a a = .ok a :=
  unify_idem a ha

/-- Unifying any collection of types gives the same answer, or fails alike, in every order. -/
theorem C11_unify_order (l l' : List (Option RsType)) (h : l.Perm l')
    (hg : ∀ a ∈ l, ∀ t, a = some t → GoodType t) :
    l.foldlM RsType.unify none = l'.foldlM RsType.unify none :=
  unify_fold_perm h hg none (by simp)

/-- Not vacuous. -/
example : RsType.unify (some (.arithmos .nat)) (some (.arithmos .int)) = .ok (some (.arithmos .int)) ∧
    RsType.unify (some (.arithmos .nat)) (some .enum) = .error (.err .unifyDifferentKinds) := by decide

end Rtcg
