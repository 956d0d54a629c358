import Verif.Spec.Lang
import Verif.Proofs.Text
import Mathlib.Data.List.Nodup
import Mathlib.Tactic.Tauto

namespace Rtcg
open Rtcg.Spec

/-! ### Go maps -/
namespace GoMap
variable {κ α : Type} [DecidableEq κ]

theorem mem_of_get? {m : GoMap κ α} {k : κ} {v : α} (h : get? m k = some v) : (k, v) ∈ m := by
  induction m with
  | nil => simp [get?] at h
  | cons p m ih =>
    obtain ⟨k', v'⟩ := p
    unfold get? at h
    split at h
    · rename_i e; subst e; simp_all
    · simp [ih h]

theorem get?_of_mem {m : GoMap κ α} (hm : WF m) {k : κ} {v : α} (h : (k, v) ∈ m) : get? m k = some v := by
  induction m with
  | nil => simp at h
  | cons p m ih =>
    obtain ⟨k', v'⟩ := p
    unfold WF at hm
    simp only [List.map_cons, List.nodup_cons] at hm
    unfold get?
    rcases List.mem_cons.1 h with e | h
    · cases e; simp
    · have : k' ≠ k := by
        rintro rfl
        exact hm.1 (List.mem_map_of_mem (f := (·.1)) h)
      rw [if_neg this]
      exact ih hm.2 h

theorem get?_eq_some_iff {m : GoMap κ α} (hm : WF m) {k : κ} {v : α} : get? m k = some v ↔ (k, v) ∈ m :=
  ⟨mem_of_get?, get?_of_mem hm⟩

theorem get?_eq_none_iff {m : GoMap κ α} {k : κ} : get? m k = none ↔ k ∉ keys m := by
  induction m with
  | nil => simp [get?, keys]
  | cons p m ih =>
    obtain ⟨k', v'⟩ := p
    unfold get?
    simp only [keys, List.map_cons, List.mem_cons, not_or]
    by_cases h : k' = k
    · subst h; simp
    · rw [if_neg h, ih]; simp [keys, Ne.symm h]

theorem get?_set (m : GoMap κ α) (k k' : κ) (v : α) :
    get? (set m k v) k' = if k = k' then some v else get? m k' := by
  induction m with
  | nil => simp [set, get?]
  | cons p m ih =>
    obtain ⟨k0, v0⟩ := p
    unfold set
    by_cases h : k0 = k
    · subst h
      simp only [if_true, get?]
      split <;> rfl
    · rw [if_neg h]
      simp only [get?, ih]
      by_cases h' : k0 = k'
      · subst h'; simp [Ne.symm h]
      · simp [h']

theorem keys_set (m : GoMap κ α) (k : κ) (v : α) :
    keys (set m k v) = if k ∈ keys m then keys m else keys m ++ [k] := by
  induction m with
  | nil => simp [set, keys]
  | cons p m ih =>
    obtain ⟨k0, v0⟩ := p
    unfold set
    by_cases h : k0 = k
    · subst h; simp [keys]
    · rw [if_neg h]
      simp only [keys, List.map_cons, List.mem_cons, Ne.symm h, false_or] at ih ⊢
      by_cases hk : k ∈ List.map (fun x => x.fst) m
      · simp only [hk, if_true] at ih ⊢; simp [ih]
      · simp only [hk, if_false] at ih ⊢; simp [ih]

theorem wf_set {m : GoMap κ α} (hm : WF m) (k : κ) (v : α) : WF (set m k v) := by
  unfold WF
  have := keys_set m k v
  unfold keys at this
  rw [this]
  split
  · exact hm
  · rename_i h
    rw [List.nodup_append]
    refine ⟨hm, by simp, ?_⟩
    intro a ha b hb e
    simp at hb; subst hb; subst e; exact h ha

theorem wf_nil : WF ([] : GoMap κ α) := by simp [WF]

theorem perm_equiv {m m' : GoMap κ α} (hm : WF m) (h : m.Perm m') : Equiv m m' := by
  intro k
  have hm' : WF m' := by
    unfold WF; exact (h.map _).nodup_iff.1 hm
  cases hk : get? m k with
  | none =>
    symm
    rw [get?_eq_none_iff] at hk ⊢
    unfold keys at *
    exact fun hc => hk ((h.map _).mem_iff.2 hc)
  | some v =>
    symm
    rw [get?_eq_some_iff hm] at hk
    rw [get?_eq_some_iff hm']
    exact h.mem_iff.1 hk

/-- Two maps with the same entries are the same list up to order. -/
theorem get?_perm {m m' : GoMap κ α} (hm : WF m) (hp : m.Perm m') {k : κ} : get? m k = get? m' k := by
  have hm' : WF m' := (hp.map _).nodup_iff.1 hm
  cases h : get? m k with
  | some v => exact (get?_of_mem hm' (hp.mem_iff.1 (mem_of_get? h))).symm
  | none =>
    rw [get?_eq_none_iff] at h
    symm
    rw [get?_eq_none_iff]
    exact fun hk => h ((hp.map (·.1)).mem_iff.2 hk)

theorem perm_of_equiv {m m' : GoMap κ α} (hm : WF m) (hm' : WF m') (h : Equiv m m') : m.Perm m' := by
  have n1 : m.Nodup := List.Nodup.of_map _ hm
  have n2 : m'.Nodup := List.Nodup.of_map _ hm'
  refine (List.perm_ext_iff_of_nodup n1 n2).2 ?_
  rintro ⟨k, v⟩
  rw [← get?_eq_some_iff hm, ← get?_eq_some_iff hm', h k]

end GoMap

/-! ### enumerations -/

theorem enum_parse_ok_iff (t : EnumTables) (hwf : GoMap.WF t.valueOf)
    (hlow : ∀ p ∈ t.valueOf, ∀ d ∈ p.1, IsLowerish d) (s : Str) (x : UInt8) :
    t.parse s = .ok x ↔ ∃ name, (name, x) ∈ t.valueOf ∧ SameIgnoringCase s name := by
  have hself : ∀ p ∈ t.valueOf, toLower p.1 = p.1 := fun p hp => toLower_self (hlow p hp)
  unfold EnumTables.parse
  cases h1 : t.valueOf.get? s with
  | some y =>
    have hm := GoMap.mem_of_get? h1
    simp only [Except.ok.injEq]
    constructor
    · rintro rfl
      exact ⟨s, hm, (toLower_eq_iff (hlow _ hm)).1 (hself _ hm)⟩
    · rintro ⟨name, hn, hs⟩
      have e := (toLower_eq_iff (hlow _ hn)).2 hs
      have e2 : toLower s = s := hself _ hm
      rw [e2] at e; subst e
      have := GoMap.get?_of_mem hwf hn
      rw [h1] at this; exact Option.some.inj this
  | none =>
    simp only
    cases h2 : t.valueOf.get? (toLower s) with
    | some y =>
      have hm := GoMap.mem_of_get? h2
      simp only [Except.ok.injEq]
      constructor
      · rintro rfl
        exact ⟨_, hm, (toLower_eq_iff (hlow _ hm)).1 rfl⟩
      · rintro ⟨name, hn, hs⟩
        have e := (toLower_eq_iff (hlow _ hn)).2 hs
        subst e
        have := GoMap.get?_of_mem hwf hn
        rw [h2] at this; exact Option.some.inj this
    | none =>
      simp only [throwErr, reduceCtorEq, false_iff]
      rintro ⟨name, hn, hs⟩
      have e := (toLower_eq_iff (hlow _ hn)).2 hs
      subst e
      have := GoMap.get?_of_mem hwf hn
      rw [h2] at this; cases this

theorem enum_parse_error (t : EnumTables) (s : Str) (f : Fail) (h : t.parse s = .error f) :
    f = .err .invalidEnum := by
  unfold EnumTables.parse at h
  split at h
  · cases h
  · split at h
    · cases h
    · simp [throwErr] at h; exact h.symm

/-- Everything `EnumText` asks, from facts about the two generated tables. -/
theorem enumText_of_tables {α : Type} (t : EnumTables) (mk : UInt8 → α) (code : α → UInt8)
    (hcm : ∀ x, code (mk x) = x) (hmc : ∀ a, mk (code a) = a)
    (hwf : GoMap.WF t.valueOf) (hwf' : GoMap.WF t.nameOf)
    (hlow : ∀ p ∈ t.valueOf, ∀ d ∈ p.1, 'a' ≤ d ∧ d ≤ 'z')
    (members : List (α × Str))
    (hm : ∀ a name, (a, name) ∈ members ↔ (name, code a) ∈ t.valueOf)
    (hm' : ∀ x name, (x, name) ∈ t.nameOf ↔ (name, x) ∈ t.valueOf) :
    EnumText (fun a => t.string (code a)) (fun s => (t.parse s).map mk) code t.typeName members := by
  have hlow' : ∀ p ∈ t.valueOf, ∀ d ∈ p.1, IsLowerish d := fun p hp d hd => Or.inl (hlow p hp d hd)
  have prints : ∀ a name, (a, name) ∈ members → t.string (code a) = name := by
    intro a name h
    have h2 := (hm' _ _).2 ((hm _ _).1 h)
    simp [EnumTables.string, GoMap.get?_of_mem hwf' h2]
  have accepts : ∀ s a, (t.parse s).map mk = .ok a ↔
      ∃ name, (a, name) ∈ members ∧ SameIgnoringCase s name := by
    intro s a
    have h0 := enum_parse_ok_iff t hwf hlow' s (code a)
    have h1 : (t.parse s).map mk = .ok a ↔ t.parse s = .ok (code a) := by
      cases hp : t.parse s with
      | error e => simp [Except.map]
      | ok y =>
        simp only [Except.map, Except.ok.injEq]
        constructor
        · rintro rfl; exact (hcm y).symm
        · rintro rfl; exact hmc a
    rw [h1, h0]
    constructor
    · rintro ⟨n, h, h'⟩; exact ⟨n, (hm _ _).2 h, h'⟩
    · rintro ⟨n, h, h'⟩; exact ⟨n, (hm _ _).1 h, h'⟩
  have rejects : ∀ s, (¬ ∃ a name, (a, name) ∈ members ∧ SameIgnoringCase s name) →
      (t.parse s).map mk = .error (.err .invalidEnum) := by
    intro s hs
    cases hp : t.parse s with
    | error f => rw [enum_parse_error t s f hp]; rfl
    | ok y =>
      refine absurd ?_ hs
      obtain ⟨name, h⟩ := (accepts s (mk y)).1 (by rw [hp]; rfl)
      exact ⟨_, name, h⟩
  have undeclared : ∀ a, (¬ ∃ name, (a, name) ∈ members) →
      t.string (code a) = t.typeName ++ ['('] ++ decNat (code a).toNat ++ [')'] := by
    intro a ha
    have : t.nameOf.get? (code a) = none := by
      rw [GoMap.get?_eq_none_iff]
      intro hc
      obtain ⟨⟨x, name⟩, hp, e⟩ := List.mem_map.1 hc
      simp only at e; subst e
      exact ha ⟨name, (hm _ _).2 ((hm' _ _).1 hp)⟩
    simp [EnumTables.string, this]
  refine ⟨prints, ?_, accepts, rejects, undeclared, ?_⟩
  · intro a name h
    rw [accepts]
    refine ⟨name, h, ?_⟩
    rw [prints a name h]
    have hv := (hm _ _).1 h
    exact (toLower_eq_iff (hlow' _ hv)).1 (toLower_self (hlow' _ hv))
  · intro a ha
    apply rejects
    rintro ⟨b, name, hb, hs⟩
    -- the printed text ends in ')' while all members consist of letters
    have hv := (hm _ _).1 hb
    have e := (toLower_eq_iff (hlow' _ hv)).2 hs
    rw [undeclared a ha] at e
    have : ')' ∈ name := by
      have e' : _ = name := e
      rw [← e']; simp [toLower, lowerChar]
    exact absurd (hlow _ hv _ this) (by decide)

end Rtcg

namespace Rtcg
open Rtcg.Spec

theorem kind_enumText : EnumText Kind.string Kind.parse Kind.val "Kind".toList kindMembers :=
  enumText_of_tables Kind.tables Kind.mk Kind.val (fun _ => rfl) (fun _ => rfl)
    (by decide) (by decide) (by decide) _
    (by rintro ⟨x⟩ name; simp [kindMembers, Kind.tables]; tauto)
    (by intro x name; simp [Kind.tables]; tauto)

theorem kind_parse_ok_iff (s : Str) (k : Kind) : Kind.parse s = .ok k ↔ NamesKind s k :=
  kind_enumText.accepts s k

theorem kind_parse_error {s : Str} {f : Fail} (h : Kind.parse s = .error f) : f = .err .invalidEnum := by
  unfold Kind.parse at h
  cases hp : Kind.tables.parse s with
  | error g => rw [hp] at h; simp [Except.map] at h; subst h; exact enum_parse_error _ _ _ hp
  | ok y => rw [hp] at h; simp [Except.map] at h

theorem namesKind_kind {s : Str} {k : Kind} (h : NamesKind s k) : k = .in_ ∨ k = .out ∨ k = .call := by
  obtain ⟨name, h, _⟩ := h
  simp only [kindMembers, List.mem_cons, Prod.mk.injEq, List.not_mem_nil, or_false] at h
  rcases h with h | h | h
  · exact Or.inl h.1
  · exact Or.inr (Or.inl h.1)
  · exact Or.inr (Or.inr h.1)

/-! ### channels -/

theorem channel_unmarshal_ok_iff (old : Channel) (text : Str) (c : Channel) (rest : Option Str) :
    Channel.unmarshalTextWithRemainder old text = (c, .ok rest) ↔ ReadsAsChannel text c rest := by
  obtain ⟨cn, ck⟩ := c
  constructor
  · intro h
    unfold Channel.unmarshalTextWithRemainder at h
    rcases splitN_three '.' text with ⟨_, hs⟩ | ⟨a, b, rfl, ha, hb, hs⟩ | ⟨a, b, r, rfl, ha, hb, hs⟩
    · simp [hs, throwErr] at h
    · rw [hs] at h
      simp only at h
      cases hk : Kind.parse (trimSpace b) with
      | error e => rw [hk] at h; simp at h
      | ok k =>
        rw [hk] at h
        simp only [Prod.mk.injEq, Channel.mk.injEq, Except.ok.injEq] at h
        obtain ⟨⟨rfl, rfl⟩, rfl⟩ := h
        exact ⟨a, b, ha, hb, (trimSpace_eq_iff _ _).1 rfl,
          ⟨_, (trimSpace_eq_iff _ _).1 rfl, (kind_parse_ok_iff _ _).1 hk⟩, rfl⟩
    · rw [hs] at h
      simp only at h
      cases hk : Kind.parse (trimSpace b) with
      | error e => rw [hk] at h; simp at h
      | ok k =>
        rw [hk] at h
        simp only [Prod.mk.injEq, Channel.mk.injEq, Except.ok.injEq] at h
        obtain ⟨⟨rfl, rfl⟩, rfl⟩ := h
        exact ⟨a, b, ha, hb, (trimSpace_eq_iff _ _).1 rfl,
          ⟨_, (trimSpace_eq_iff _ _).1 rfl, (kind_parse_ok_iff _ _).1 hk⟩, by simp⟩
  · rintro ⟨a, b, ha, hb, hn, ⟨k, hk1, hk2⟩, ht⟩
    have e1 := (trimSpace_eq_iff _ _).2 hn
    have e2 := (trimSpace_eq_iff _ _).2 hk1
    have e3 := (kind_parse_ok_iff _ _).2 hk2
    simp only at e1
    unfold Channel.unmarshalTextWithRemainder
    cases rest with
    | none =>
      simp only at ht; subst ht
      rw [splitN_two_fields ha hb]
      simp [e1, e2, e3]
    | some r =>
      simp only [List.append_assoc, List.cons_append] at ht; subst ht
      rw [splitN_three_fields ha hb]
      simp [e1, e2, e3]

theorem channel_unmarshal_noDot (old : Channel) (text : Str) (h : '.' ∉ text) :
    Channel.unmarshalTextWithRemainder old text = (old, throwErr (.badFieldCount 1)) := by
  rcases splitN_three '.' text with ⟨_, hs⟩ | ⟨a, b, rfl, _⟩ | ⟨a, b, r, rfl, _⟩
  · simp [Channel.unmarshalTextWithRemainder, hs]
  · simp at h
  · simp at h

theorem channel_unmarshal_badKind (old : Channel) (text : Str) (h : '.' ∈ text)
    (hn : ¬ ∃ c rest, ReadsAsChannel text c rest) :
    (Channel.unmarshalTextWithRemainder old text).2 = throwErr .invalidEnum := by
  have key : ∀ c r, Channel.unmarshalTextWithRemainder old text ≠ (c, .ok r) :=
    fun c r e => hn ⟨c, r, (channel_unmarshal_ok_iff _ _ _ _).1 e⟩
  unfold Channel.unmarshalTextWithRemainder at key ⊢
  rcases splitN_three '.' text with ⟨h0, hs⟩ | ⟨a, b, rfl, ha, hb, hs⟩ | ⟨a, b, r, rfl, ha, hb, hs⟩
  · exact absurd h h0
  · rw [hs] at key ⊢
    simp only at key ⊢
    cases hk : Kind.parse (trimSpace b) with
    | error e => simp [kind_parse_error hk, throwErr]
    | ok k => exact absurd (by rw [hk]) (key _ _)
  · rw [hs] at key ⊢
    simp only at key ⊢
    cases hk : Kind.parse (trimSpace b) with
    | error e => simp [kind_parse_error hk, throwErr]
    | ok k => exact absurd (by rw [hk]) (key _ _)

theorem channel_unmarshal_ok_indep {old old' c : Channel} {text : Str} {rest : Option Str}
    (h : Channel.unmarshalTextWithRemainder old text = (c, .ok rest)) :
    Channel.unmarshalTextWithRemainder old' text = (c, .ok rest) :=
  (channel_unmarshal_ok_iff _ _ _ _).2 ((channel_unmarshal_ok_iff _ _ _ _).1 h)

/-- The channel text of a good channel. -/
theorem readsAsChannel_marshal {c : Channel} (h : GoodChannel c) : ReadsAsChannel c.marshalText c none := by
  obtain ⟨⟨hne, hsp, hdot⟩, hk⟩ := h
  refine ⟨c.name, c.kind.string, hdot, ?_, ⟨hsp, [], [], by simp, by simp, by simp⟩, ?_, ?_⟩
  · rcases hk with h | h | h <;> rw [h] <;> decide
  · have hm : ∃ name, (c.kind, name) ∈ kindMembers := by
      rcases hk with h | h | h <;> rw [h]
      · exact ⟨_, by simp [kindMembers, Kind.in_]; rfl⟩
      · exact ⟨_, by simp [kindMembers, Kind.out]; rfl⟩
      · exact ⟨_, by simp [kindMembers, Kind.call]; rfl⟩
    obtain ⟨name, hm⟩ := hm
    refine ⟨c.kind.string, ⟨?_, [], [], by simp, by simp, by simp⟩, ?_⟩
    · apply noOuterSpace_of_forall
      rcases hk with h | h | h <;> rw [h] <;> decide
    · exact (kind_parse_ok_iff _ _).1 (kind_enumText.roundTrip _ _ hm)
  · simp [Channel.marshalText, hne, Channel.eventSepJoin]

theorem readsAsChannel_marshal_value {c : Channel} (h : GoodChannel c) (v : Str) :
    ReadsAsChannel (Channel.eventSepJoin c.marshalText v) c (some v) := by
  obtain ⟨f0, f1, h0, h1, h2, h3, h4⟩ := readsAsChannel_marshal h
  refine ⟨f0, f1, h0, h1, h2, h3, ?_⟩
  simp only at h4
  simp [Channel.eventSepJoin, h4]

/-- Facts about any channel obtained by reading. -/
theorem readsAsChannel_facts {text : Str} {c : Channel} {rest : Option Str} (h : ReadsAsChannel text c rest) :
    NoOuterSpace c.name ∧ '.' ∉ c.name ∧ (c.kind = .in_ ∨ c.kind = .out ∨ c.kind = .call) := by
  obtain ⟨f0, f1, h0, h1, ⟨hn, l, r, e, _, _⟩, ⟨k, _, hk⟩, _⟩ := h
  exact ⟨hn, fun hc => h0 (by rw [e]; simp [hc]), namesKind_kind hk⟩

/-! ### values -/

theorem value_unmarshal_eq (text : Str) :
    Value.unmarshalText text = .ok (match parseInt (trimSpace text) with
      | some i => .int i
      | none => .enum (trimSpace text)) := by
  unfold Value.unmarshalText
  cases h : parseInt (trimSpace text) <;> simp [h]

theorem value_unmarshal_good {text : Str} {v : Value} (h : Value.unmarshalText text = .ok v) : GoodValue v := by
  rw [value_unmarshal_eq] at h
  cases hp : parseInt (trimSpace text) with
  | some i => rw [hp] at h; cases h; trivial
  | none =>
    rw [hp] at h; cases h
    exact ⟨trimSpace_noOuterSpace _, (parseInt_eq_none_iff _).1 hp⟩

theorem value_roundtrip {v : Value} (h : GoodValue v) :
    ∃ t, v.marshalText = .ok t ∧ Value.unmarshalText t = .ok v := by
  cases v with
  | none => exact h.elim
  | int i =>
    refine ⟨_, rfl, ?_⟩
    rw [value_unmarshal_eq, trimSpace_of_noOuterSpace (noOuterSpace_of_forall (formatInt_noSpace i)),
      parseInt_formatInt]
  | enum s =>
    refine ⟨_, rfl, ?_⟩
    rw [value_unmarshal_eq, trimSpace_of_noOuterSpace h.1, (parseInt_eq_none_iff s).2 h.2]

/-! ### events -/

theorem event_unmarshal_ok_iff (old : Event) (text : Str) (e : Event) :
    Event.unmarshalText old text = (e, none) ↔
      (ReadsAsChannel text e.channel none ∧ e.value = old.value) ∨
      (∃ r, ReadsAsChannel text e.channel (some r) ∧ Value.unmarshalText r = .ok e.value) := by
  obtain ⟨ec, ev⟩ := e
  have nodouble : ∀ c c' r, ReadsAsChannel text c none → ReadsAsChannel text c' (some r) → False := by
    intro c c' r h1 h2
    have e1 := (channel_unmarshal_ok_iff Channel.zero _ _ _).2 h1
    have e2 := (channel_unmarshal_ok_iff Channel.zero _ _ _).2 h2
    rw [e1] at e2; simp at e2
  unfold Event.unmarshalText
  rcases hc : Channel.unmarshalTextWithRemainder old.channel text with ⟨c, res⟩
  cases res with
  | error f =>
    simp only [Prod.mk.injEq, reduceCtorEq, and_false, false_iff, not_or, not_exists, not_and]
    constructor
    · intro h; rw [(channel_unmarshal_ok_iff _ _ _ _).2 h] at hc; simp at hc
    · intro r h; rw [(channel_unmarshal_ok_iff _ _ _ _).2 h] at hc; simp at hc
  | ok rest =>
    have hr := (channel_unmarshal_ok_iff _ _ _ _).1 hc
    cases rest with
    | none =>
      simp only [Prod.mk.injEq, Event.mk.injEq, and_true]
      constructor
      · rintro ⟨rfl, rfl⟩; exact Or.inl ⟨hr, rfl⟩
      · rintro (⟨h1, h2⟩ | ⟨r, h1, _⟩)
        · rw [(channel_unmarshal_ok_iff _ _ _ _).2 h1] at hc; simp at hc
          exact ⟨hc.symm, h2.symm⟩
        · exact (nodouble _ _ _ hr h1).elim
    | some r =>
      cases hv : Value.unmarshalText r with
      | error f => rw [value_unmarshal_eq] at hv; cases hv
      | ok v =>
        simp only [hv, Prod.mk.injEq, Event.mk.injEq, and_true]
        constructor
        · rintro ⟨rfl, rfl⟩; exact Or.inr ⟨r, hr, hv⟩
        · rintro (⟨h1, _⟩ | ⟨r', h1, h2⟩)
          · exact (nodouble _ _ _ h1 hr).elim
          · rw [(channel_unmarshal_ok_iff _ _ _ _).2 h1] at hc; simp at hc
            obtain ⟨rfl, rfl⟩ := hc
            rw [hv] at h2; cases h2; exact ⟨rfl, rfl⟩

theorem event_parse_ok_iff (text : Str) (e : Event) :
    Event.parse text = .ok e ↔
      (ReadsAsChannel text e.channel none ∧ e.value = .none) ∨
      (∃ r, ReadsAsChannel text e.channel (some r) ∧ Value.unmarshalText r = .ok e.value) := by
  have := event_unmarshal_ok_iff Event.zero text e
  simp only [Event.zero] at this
  rw [← this]
  unfold Event.parse
  change _ ↔ Event.unmarshalText Event.zero text = (e, none)
  rcases Event.unmarshalText Event.zero text with ⟨e', _ | f⟩ <;> simp

theorem event_marshal_total (e : Event) : ∃ t, e.marshalText = .ok t := by
  unfold Event.marshalText
  cases hv : e.value <;> simp [Value.isEmpty, Value.marshalText]

theorem event_roundtrip {e : Event} (h : GoodEvent e) :
    ∃ t, e.marshalText = .ok t ∧ Event.parse t = .ok e := by
  obtain ⟨hc, hv⟩ := h
  by_cases hn : e.value = .none
  · refine ⟨e.channel.marshalText, by simp [Event.marshalText, hn, Value.isEmpty], ?_⟩
    rw [event_parse_ok_iff]
    exact Or.inl ⟨readsAsChannel_marshal hc, hn⟩
  · have hv' : GoodValue e.value := hv.resolve_left hn
    obtain ⟨t, ht, ht'⟩ := value_roundtrip hv'
    refine ⟨Channel.eventSepJoin e.channel.marshalText t, ?_, ?_⟩
    · have : e.value.isEmpty = false := by cases hx : e.value <;> simp_all [Value.isEmpty]
      simp [Event.marshalText, this, ht]
    · rw [event_parse_ok_iff]
      exact Or.inr ⟨t, readsAsChannel_marshal_value hc t, ht'⟩

theorem length_stripped {s t : Str} (h : Stripped s t) : t.length ≤ s.length := by
  obtain ⟨_, l, r, e, _⟩ := h
  rw [e]; simp; omega

theorem goodEvent_of_roundtrip {e : Event} {t : Str} (h1 : e.marshalText = .ok t) (h2 : Event.parse t = .ok e) :
    GoodEvent e := by
  rw [event_parse_ok_iff] at h2
  have hf : NoOuterSpace e.channel.name ∧ '.' ∉ e.channel.name ∧
      (e.channel.kind = .in_ ∨ e.channel.kind = .out ∨ e.channel.kind = .call) := by
    rcases h2 with ⟨h, _⟩ | ⟨r, h, _⟩ <;> exact readsAsChannel_facts h
  have hval : e.value = .none ∨ GoodValue e.value := by
    rcases h2 with ⟨_, h⟩ | ⟨r, _, h⟩
    · exact Or.inl h
    · exact Or.inr (value_unmarshal_good h)
  refine ⟨⟨⟨?_, hf.1, hf.2.1⟩, hf.2.2⟩, hval⟩
  intro hname
  have hct : e.channel.marshalText = [] := by simp [Channel.marshalText, hname]
  unfold Event.marshalText at h1
  rw [hct] at h1
  rcases h2 with ⟨h, hnone⟩ | ⟨r, h, hv⟩
  · simp [hnone, Value.isEmpty] at h1
    subst h1
    obtain ⟨f0, f1, _, _, _, _, ht⟩ := h
    simp at ht
  · have hg := value_unmarshal_good hv
    obtain ⟨f0, f1, hf0, hf1, hs, _, ht⟩ := h
    simp only at ht
    rw [hname] at hs
    cases hev : e.value with
    | none => rw [hev] at hg; exact hg
    | int i =>
      rw [hev] at h1
      simp [Value.isEmpty, Value.marshalText, Channel.eventSepJoin] at h1
      subst h1
      cases f0 with
      | nil =>
        simp at ht
        have : '.' ∈ formatInt i := by rw [ht]; simp
        rcases formatInt_chars i _ this with h | h
        · exact absurd h (by decide)
        · exact absurd h (by decide)
      | cons a f0 => simp at ht; simp at hf0; exact hf0.1 ht.1
    | enum s =>
      rw [hev] at h1
      simp [Value.isEmpty, Value.marshalText, Channel.eventSepJoin] at h1
      subst h1
      have hl : s.length ≤ r.length := by
        rw [value_unmarshal_eq, hev] at hv
        split at hv
        · cases hv
        · cases hv
          exact length_stripped ((trimSpace_eq_iff _ _).1 rfl)
      have := congrArg List.length ht
      simp at this; omega

/-! ### types -/

theorem unify_error_iff (a b : Option RsType) :
    (∃ f, RsType.unify a b = .error f) ↔ ∃ x y, a = some x ∧ b = some y ∧ x.kind ≠ y.kind := by
  cases a with
  | none => simp [RsType.unify]
  | some x =>
    cases b with
    | none => simp [RsType.unify]
    | some y =>
      by_cases hk : x.kind = y.kind
      · simp only [RsType.unify, hk, ne_eq, not_true_eq_false, if_false, Option.some.injEq]
        constructor
        · rintro ⟨f, h⟩; split at h <;> cases h
        · rintro ⟨x', y', rfl, rfl, h⟩; exact absurd hk h
      · simp [RsType.unify, hk, throwErr]


/-- `unify` in closed form, when both are present. -/
theorem unify_some (x y : RsType) : RsType.unify (some x) (some y) =
    if x.kind ≠ y.kind then throwErr .unifyDifferentKinds
    else if x.kind = .arithmos then .ok (some (.arithmos (RsType.maxDomain x.domain y.domain)))
    else .ok (some x) := rfl

theorem maxDomain_comm (a b : Domain) : RsType.maxDomain a b = RsType.maxDomain b a := by
  obtain ⟨a⟩ := a; obtain ⟨b⟩ := b
  unfold RsType.maxDomain
  simp only [UInt8.le_iff_toNat_le]
  split <;> split
  · congr 1; apply UInt8.toNat.inj; omega
  · rfl
  · rfl
  · omega

theorem maxDomain_assoc (a b c : Domain) :
    RsType.maxDomain (RsType.maxDomain a b) c = RsType.maxDomain a (RsType.maxDomain b c) := by
  obtain ⟨a⟩ := a; obtain ⟨b⟩ := b; obtain ⟨c⟩ := c
  unfold RsType.maxDomain
  simp only [UInt8.le_iff_toNat_le]
  repeat' split
  all_goals first | rfl | (exfalso; simp_all; omega) | skip

theorem maxDomain_self (a : Domain) : RsType.maxDomain a a = a := by
  unfold RsType.maxDomain; split <;> rfl

theorem unify_comm_some {x y : RsType} (gx : GoodType x) (gy : GoodType y) :
    RsType.unify (some x) (some y) = RsType.unify (some y) (some x) := by
  obtain ⟨kx, dx⟩ := x
  obtain ⟨ky, dy⟩ := y
  simp only [unify_some]
  by_cases hk : kx = ky
  · subst hk
    by_cases h1 : kx = .arithmos
    · simp [h1, maxDomain_comm]
    · have e1 := gx h1
      have e2 := gy h1
      simp only at e1 e2; subst e1 e2
      rfl
  · simp [hk, Ne.symm hk]

theorem unify_idem (a : Option RsType) (ha : ∀ t, a = some t → GoodType t) : RsType.unify a a = .ok a := by
  cases a with
  | none => rfl
  | some x =>
    obtain ⟨k, d⟩ := x
    simp only [unify_some]
    by_cases h1 : k = .arithmos
    · simp [h1, maxDomain_self, RsType.arithmos]
    · simp [h1]

theorem unify_none_left (b : Option RsType) : RsType.unify none b = .ok b := by cases b <;> rfl
theorem unify_none_right (b : Option RsType) : RsType.unify b none = .ok b := by cases b <;> rfl

theorem unify_assoc (a b c : Option RsType) :
    (do let d ← RsType.unify a b; RsType.unify d c) = (do let d ← RsType.unify b c; RsType.unify a d) := by
  cases a with
  | none =>
    simp only [unify_none_left, bind, Except.bind]
    cases RsType.unify b c <;> rfl
  | some x =>
    cases b with
    | none => simp [unify_none_left, unify_none_right, bind, Except.bind]
    | some y =>
      cases c with
      | none =>
        simp only [unify_none_right, bind, Except.bind]
        cases RsType.unify (some x) (some y) <;> rfl
      | some z =>
        obtain ⟨kx, dx⟩ := x
        obtain ⟨ky, dy⟩ := y
        obtain ⟨kz, dz⟩ := z
        by_cases h1 : kx = ky
        · subst h1
          by_cases h2 : kx = kz
          · subst h2
            by_cases h3 : kx = .arithmos
            · simp [unify_some, h3, bind, Except.bind, RsType.arithmos, maxDomain_assoc]
            · simp [unify_some, h3, bind, Except.bind]
          · by_cases h3 : kx = .arithmos
            · subst h3
              simp [unify_some, bind, Except.bind, h2, RsType.arithmos, throwErr]
            · simp [unify_some, h3, bind, Except.bind, h2, throwErr]
        · by_cases h2 : ky = kz
          · subst h2
            by_cases h3 : ky = .arithmos
            · subst h3
              simp [unify_some, bind, Except.bind, h1, RsType.arithmos, throwErr]
            · simp [unify_some, h3, bind, Except.bind, h1, throwErr]
          · simp [unify_some, bind, Except.bind, h1, h2, throwErr]

theorem goodType_arithmos (d : Domain) : GoodType (.arithmos d) := by
  intro h; exact absurd rfl h

theorem unify_good {a b c : Option RsType} (ha : ∀ t, a = some t → GoodType t)
    (hb : ∀ t, b = some t → GoodType t) (h : RsType.unify a b = .ok c) : ∀ t, c = some t → GoodType t := by
  cases a with
  | none => rw [unify_none_left] at h; cases h; exact hb
  | some x =>
    cases b with
    | none => rw [unify_none_right] at h; cases h; exact ha
    | some y =>
      rw [unify_some] at h
      split at h
      · cases h
      · split at h
        · cases h; intro t e; cases e; exact goodType_arithmos _
        · cases h; exact ha

theorem unify_comm' (a b : Option RsType) (ha : ∀ t, a = some t → GoodType t)
    (hb : ∀ t, b = some t → GoodType t) : RsType.unify a b = RsType.unify b a := by
  cases a with
  | none => rw [unify_none_left, unify_none_right]
  | some x =>
    cases b with
    | none => rfl
    | some y => exact unify_comm_some (ha x rfl) (hb y rfl)

theorem unify_fold_perm {l l' : List (Option RsType)} (h : l.Perm l')
    (hg : ∀ a ∈ l, ∀ t, a = some t → GoodType t) (s : Option RsType) (hs : ∀ t, s = some t → GoodType t) :
    l.foldlM RsType.unify s = l'.foldlM RsType.unify s := by
  induction h generalizing s with
  | nil => rfl
  | cons x _ ih =>
    simp only [List.foldlM_cons]
    cases hu : RsType.unify s x with
    | error f => rfl
    | ok s' =>
      exact ih (fun a ha => hg a (by simp [ha])) s'
        (unify_good hs (hg x (by simp)) hu)
  | swap x y l =>
    simp only [List.foldlM_cons]
    have hx := hg x (by simp)
    have hy := hg y (by simp)
    have key : (do let s' ← RsType.unify s y; RsType.unify s' x) =
        (do let s' ← RsType.unify s x; RsType.unify s' y) := by
      rw [unify_assoc, unify_assoc, unify_comm' y x hy hx]
    have := congrArg (fun r => r >>= fun s'' => l.foldlM RsType.unify s'') key
    simpa only [bind_assoc] using this
  | trans h1 _ ih1 ih2 =>
    rw [ih1 hg s hs]
    exact ih2 (fun a ha => hg a (h1.mem_iff.2 ha)) s hs

theorem goodType_value (v : Value) : GoodType v.type := by
  cases v with
  | none => intro _; rfl
  | enum s => intro _; rfl
  | int i =>
    unfold Value.type
    split
    · rename_i h; cases h
    · split <;> exact goodType_arithmos _
    · intro _; rfl

end Rtcg
