import Verif.Spec.Xml

/-
Texts, names and references of XML: the reader takes exactly the texts of the grammar.
-/

namespace Rtcg.XmlProofs

open Rtcg Rtcg.Xml Rtcg.Spec.XmlText

/-! ### characters -/

theorem char_lt (c : Char) : c.toNat ≤ 0x10FFFF := by
  have := c.valid
  simp only [UInt32.isValidChar, Nat.isValidChar] at this
  show c.val.toNat ≤ _
  omega

theorem inRange_iff (c : Char) : inRange c = true ↔ XmlChar c := by
  have h1 : c.toNat = 0x09 ↔ c = '\t' := ⟨fun h => Char.toNat_inj.mp h, fun h => h ▸ rfl⟩
  have h2 : c.toNat = 0x0A ↔ c = '\n' := ⟨fun h => Char.toNat_inj.mp h, fun h => h ▸ rfl⟩
  have h3 : c.toNat = 0x0D ↔ c = '\r' := ⟨fun h => Char.toNat_inj.mp h, fun h => h ▸ rfl⟩
  have := char_lt c
  simp only [inRange, XmlChar, Bool.or_eq_true, Bool.and_eq_true, decide_eq_true_eq, List.mem_cons, List.not_mem_nil, or_false, h1, h2, h3]
  constructor
  · rintro (((((h | h) | h) | h) | h) | h) <;> simp [h]
  · rintro ((h | h | h) | h | h | h) <;> simp [h, this]

theorem isBlank_iff (c : Char) : isBlank c = true ↔ c ∈ [' ', '\t', '\n', '\r'] := by
  simp only [isBlank, Bool.or_eq_true, decide_eq_true_eq, List.mem_cons, List.not_mem_nil, or_false]
  constructor
  · rintro (((h | h) | h) | h) <;> simp [h]
  · rintro (h | h | h | h) <;> simp [h]

/-- The text does not begin with white space. -/
def NoBlank (s : Str) : Prop := ∀ c r, s = c :: r → isBlank c = false

theorem space_append {w s : Str} (hw : Blanks w) : space (w ++ s) = space s := by
  induction w with
  | nil => rfl
  | cons c w ih =>
    have hc : isBlank c = true := (isBlank_iff c).2 (hw c (by simp))
    show space (c :: (w ++ s)) = _
    rw [← ih (fun x hx => hw x (by simp [hx]))]
    simp [space, hc]

theorem space_noBlank {s : Str} (h : NoBlank s) : space s = s := by
  cases s with
  | nil => rfl
  | cons c r => simp [space, h c r rfl]

theorem space_split (s : Str) : ∃ w, s = w ++ space s ∧ Blanks w ∧ NoBlank (space s) := by
  refine ⟨s.takeWhile isBlank, (List.takeWhile_append_dropWhile).symm, ?_, ?_⟩
  · intro c hc
    exact (isBlank_iff c).1 (List.all_eq_true.mp (List.all_takeWhile) c hc)
  · intro c r h
    have := List.head?_dropWhile_not isBlank s
    rw [show s.dropWhile isBlank = c :: r from h] at this
    simpa using this

/-! ### names -/

theorem isFirst_iff (N : XmlNames) (c : Char) : isFirst N c = true ↔ NameStart N c := by
  unfold isFirst NameStart
  by_cases h : c.toNat < 128
  · rw [if_pos h]
    simp only [Bool.or_eq_true, Bool.and_eq_true, decide_eq_true_eq]
    constructor
    · rintro (((h | h) | h) | h) <;> simp [h]
    · rintro (h' | h' | h' | h' | h')
      · simp [h']
      · simp [h']
      · simp [h']
      · simp [h']
      · omega
  · rw [if_neg h]
    constructor
    · intro h'; exact .inr (.inr (.inr (.inr ⟨by omega, h'⟩)))
    · have hz : ∀ d : Char, d.toNat < 128 → ¬ c ≤ d := fun d hd hcd => h (Nat.lt_of_le_of_lt (show c.toNat ≤ d.toNat from hcd) hd)
      rintro (h' | h' | h' | h' | h')
      · exact absurd h'.2 (hz 'Z' (by decide))
      · exact absurd h'.2 (hz 'z' (by decide))
      · subst h'; exact absurd (by decide) h
      · subst h'; exact absurd (by decide) h
      · exact h'.2

theorem isSecond_iff (N : XmlNames) (c : Char) : isSecond N c = true ↔ NameOther N c := by
  unfold isSecond NameOther
  by_cases h : c.toNat < 128
  · rw [if_pos h]
    simp only [Bool.or_eq_true, Bool.and_eq_true, decide_eq_true_eq]
    constructor
    · rintro ((h | h) | h) <;> simp [h]
    · rintro (h' | h' | h' | h')
      · simp [h']
      · simp [h']
      · simp [h']
      · omega
  · rw [if_neg h]
    constructor
    · intro h'; exact .inr (.inr (.inr ⟨by omega, h'⟩))
    · have hz : ∀ d : Char, d.toNat < 128 → ¬ c ≤ d := fun d hd hcd => h (Nat.lt_of_le_of_lt (show c.toNat ≤ d.toNat from hcd) hd)
      rintro (h' | h' | h' | h')
      · exact absurd h'.2 (hz '9' (by decide))
      · subst h'; exact absurd (by decide) h
      · subst h'; exact absurd (by decide) h
      · exact h'.2

theorem isName_iff (N : XmlNames) (t : Str) : isName N t = true ↔ Name N t := by
  cases t with
  | nil =>
    constructor
    · intro h; cases h
    · rintro ⟨c, r, h, _⟩; cases h
  | cons c r =>
    simp only [isName, Name, Bool.and_eq_true, isFirst_iff, List.all_eq_true, Bool.or_eq_true, isSecond_iff]
    constructor
    · rintro ⟨h1, h2⟩; exact ⟨c, r, rfl, h1, h2⟩
    · rintro ⟨c', r', h, h1, h2⟩; cases h; exact ⟨h1, h2⟩

theorem inName_iff (c : Char) : inName c = true ↔ NameChar c := by
  simp only [inName, NameChar, Bool.or_eq_true, Bool.and_eq_true, decide_eq_true_eq, List.mem_cons, List.not_mem_nil, or_false]
  constructor
  · rintro (((((((h | h) | h) | h) | h) | h) | h) | h) <;> simp [h]
  · rintro (h | h | h | (h | h | h | h) | h) <;> simp [h]

theorem nameStart_char {N : XmlNames} {c : Char} (h : NameStart N c) : NameChar c := by
  rcases h with h | h | h | h | h <;> simp [NameChar, h]

theorem nameOther_char {N : XmlNames} {c : Char} (h : NameOther N c) : NameChar c := by
  rcases h with h | h | h | h <;> simp [NameChar, h]

theorem name_chars {N : XmlNames} {t : Str} (h : Name N t) : ∀ c ∈ t, NameChar c := by
  obtain ⟨c, r, rfl, h1, h2⟩ := h
  intro x hx
  rcases List.mem_cons.mp hx with rfl | hx
  · exact nameStart_char h1
  · exact (h2 x hx).elim nameStart_char nameOther_char

theorem takeWhile_append {p : Char → Bool} {a b : Str} (ha : ∀ c ∈ a, p c = true) (hb : ∀ c r, b = c :: r → p c = false) :
    (a ++ b).takeWhile p = a ∧ (a ++ b).dropWhile p = b := by
  induction a with
  | nil =>
    cases b with
    | nil => exact ⟨rfl, rfl⟩
    | cons c r => have := hb c r rfl; simp [this]
  | cons c a ih =>
    have hc := ha c (by simp)
    have := ih (fun x hx => ha x (by simp [hx]))
    simp only [List.cons_append, List.takeWhile_cons, List.dropWhile_cons, hc, if_true]
    exact ⟨by rw [this.1], this.2⟩

theorem dropWhile_head {p : Char → Bool} {s : Str} {c : Char} {r : Str} (h : s.dropWhile p = c :: r) : p c = false := by
  have := List.head?_dropWhile_not p s
  rw [h] at this
  simpa using this

theorem readName_iff {N : XmlNames} {s n r : Str} : readName N s = .ok (n, r) ↔ s = n ++ r ∧ Name N n ∧ NotName r := by
  unfold readName
  constructor
  · intro h
    simp only at h
    split at h
    · rename_i hn
      cases h
      refine ⟨(List.takeWhile_append_dropWhile).symm, (isName_iff N _).1 hn, ?_⟩
      intro c q hq hc
      rw [← inName_iff, dropWhile_head hq] at hc
      cases hc
    · cases h
  · rintro ⟨rfl, hn, hr⟩
    have := takeWhile_append (p := inName) (a := n) (b := r) (fun c hc => (inName_iff c).2 (name_chars hn c hc))
      (fun c q hq => by
        cases hb : inName c with
        | false => rfl
        | true => exact absurd ((inName_iff c).1 hb) (hr c q hq))
    simp only [this, (isName_iff N n).2 hn, if_true]

theorem count_colon (t : Str) : ¬ (t.count ':' > 1) ↔ ∀ a b c, t ≠ a ++ ':' :: b ++ ':' :: c := by
  constructor
  · intro h a b c ht
    subst ht
    apply h
    simp only [List.append_assoc, List.count_append, List.cons_append, List.count_cons_self]
    omega
  · intro h hc
    have h1 : ':' ∈ t := List.count_pos_iff.mp (by omega)
    obtain ⟨a, b, rfl⟩ := List.append_of_mem h1
    -- split at the first colon
    have : ∃ a b, a ++ ':' :: b = a ++ ':' :: b := ⟨a, b, rfl⟩
    rw [List.count_append, List.count_cons_self] at hc
    by_cases hb : 0 < b.count ':'
    · obtain ⟨b1, b2, rfl⟩ := List.append_of_mem (List.count_pos_iff.mp hb)
      exact h a b1 b2 (by simp)
    · obtain ⟨a1, a2, rfl⟩ := List.append_of_mem (List.count_pos_iff.mp (show 0 < a.count ':' by omega))
      exact h a1 a2 b (by simp)

theorem readNsName_iff {N : XmlNames} {s n r : Str} : readNsName N s = .ok (n, r) ↔ s = n ++ r ∧ QName N n ∧ NotName r := by
  unfold readNsName
  constructor
  · intro h
    cases hn : readName N s with
    | error e => rw [hn] at h; cases h
    | ok q =>
      obtain ⟨m, q⟩ := q
      rw [hn] at h
      simp only at h
      split at h
      · cases h
      · rename_i hc
        cases h
        have := readName_iff.1 hn
        exact ⟨this.1, ⟨this.2.1, (count_colon _).1 hc⟩, this.2.2⟩
  · rintro ⟨hs, ⟨hn, hc⟩, hr⟩
    rw [readName_iff.2 ⟨hs, hn, hr⟩]
    simp only
    rw [if_neg ((count_colon _).2 hc)]

theorem cut_iff {x : Char} {s a b : Str} : cut x s = some (a, b) ↔ s = a ++ x :: b ∧ x ∉ a := by
  induction s generalizing a b with
  | nil => simp [cut]
  | cons c s ih =>
    unfold cut
    by_cases hc : c = x
    · rw [if_pos hc]
      subst hc
      constructor
      · intro h; cases h; simp
      · rintro ⟨h, hx⟩
        cases a with
        | nil => cases h; rfl
        | cons d a => simp at h hx; exact absurd h.1 hx.1
    · rw [if_neg hc]
      cases hcut : cut x s with
      | none =>
        simp only
        constructor
        · intro h; cases h
        · rintro ⟨h, hx⟩
          cases a with
          | nil => simp at h; exact absurd h.1 hc
          | cons d a =>
            simp at h hx
            rw [(ih (a := a) (b := b)).2 ⟨h.2, hx.2⟩] at hcut
            cases hcut
      | some q =>
        obtain ⟨a', b'⟩ := q
        have h' := (ih (a := a') (b := b')).1 hcut
        simp only
        constructor
        · intro h; cases h
          exact ⟨by rw [h'.1]; rfl, by simp; exact ⟨fun h => hc h.symm, h'.2⟩⟩
        · rintro ⟨h, hx⟩
          cases a with
          | nil => simp at h; exact absurd h.1 hc
          | cons d a =>
            simp at h hx
            have := (ih (a := a) (b := b)).2 ⟨h.2, hx.2⟩
            rw [hcut] at this
            cases this
            rw [h.1]

theorem cut_none {x : Char} {s : Str} : cut x s = none ↔ x ∉ s := by
  constructor
  · intro h hx
    induction s with
    | nil => cases hx
    | cons c s ih =>
      unfold cut at h
      by_cases hc : c = x
      · rw [if_pos hc] at h; cases h
      · rw [if_neg hc] at h
        cases hcut : cut x s with
        | none => exact ih hcut ((List.mem_cons.mp hx).resolve_left (fun h => hc h.symm))
        | some q => rw [hcut] at h; cases h
  · intro h
    cases hc : cut x s with
    | none => rfl
    | some q => exact absurd (by rw [(cut_iff (a := q.1) (b := q.2)).1 hc |>.1]; simp) h

theorem localPart_iff (t l : Str) : LocalPart t l ↔ l = localPart t := by
  unfold localPart
  cases hc : cut ':' t with
  | none =>
    have hn := cut_none.1 hc
    simp only
    constructor
    · rintro (⟨p, h, _⟩ | ⟨h, _⟩)
      · exact absurd (by rw [h]; simp) hn
      · exact h
    · intro h
      refine .inr ⟨h, ?_⟩
      rintro ⟨p, q, h, _⟩
      exact absurd (by rw [h]; simp) hn
  | some q =>
    obtain ⟨a, b⟩ := q
    have h' := cut_iff.1 hc
    have huniq : ∀ p q, t = p ++ ':' :: q → ':' ∉ p → p = a ∧ q = b := by
      intro p q h hp
      have := cut_iff.2 ⟨h, hp⟩
      rw [hc] at this; cases this; exact ⟨rfl, rfl⟩
    simp only
    by_cases hab : a = [] ∨ b = []
    · rw [if_pos hab]
      constructor
      · rintro (⟨p, h, hp, hl, hcp⟩ | ⟨h, _⟩)
        · obtain ⟨rfl, rfl⟩ := huniq p l h hcp
          rcases hab with h | h
          · exact absurd h hp
          · exact absurd h hl
        · exact h
      · intro h
        refine .inr ⟨h, ?_⟩
        rintro ⟨p, q, h, hp, hq, hcp⟩
        obtain ⟨rfl, rfl⟩ := huniq p q h hcp
        exact hab.elim hp hq
    · rw [if_neg hab]
      have ha : a ≠ [] := fun h => hab (.inl h)
      have hb : b ≠ [] := fun h => hab (.inr h)
      constructor
      · rintro (⟨p, h, hp, hl, hcp⟩ | ⟨h, hno⟩)
        · exact (huniq p l h hcp).2
        · exact absurd ⟨a, b, h'.1, ha, hb, h'.2⟩ hno
      · intro h
        subst h
        exact .inl ⟨a, h'.1, ha, hb, h'.2⟩

/-! ### references -/

theorem digit_iff (base : Nat) (hb : base = 10 ∨ base = 16) (c : Char) :
    isDigitIn base c = true ↔ ((c, digitValue c) ∈ digits ∧ digitValue c < base) := by
  constructor
  · intro h
    have hm : c ∈ digits.map (·.1) := by
      simp only [isDigitIn, Bool.or_eq_true, Bool.and_eq_true, decide_eq_true_eq] at h
      have key : ∀ lo hi : Char, lo ≤ c → c ≤ hi → c ∈ (List.range (hi.toNat + 1)).map Char.ofNat := by
        intro lo hi _ h2
        refine List.mem_map.mpr ⟨c.toNat, List.mem_range.mpr ?_, Char.ofNat_toNat c⟩
        have : c.toNat ≤ hi.toNat := h2
        omega
      rcases h with (h | ⟨⟨_, h1⟩, h2⟩) | ⟨⟨_, h1⟩, h2⟩
      · have := key _ _ h.1 h.2
        revert h
        revert this
        generalize c = x
        revert x
        decide +kernel
      · have := key _ _ h1 h2
        revert h1 h2
        revert this
        generalize c = x
        revert x
        decide +kernel
      · have := key _ _ h1 h2
        revert h1 h2
        revert this
        generalize c = x
        revert x
        decide +kernel
    rcases hb with rfl | rfl
    · revert h; revert hm; generalize c = x; revert x; decide +kernel
    · revert h; revert hm; generalize c = x; revert x; decide +kernel
  · rintro ⟨h, hlt⟩
    have hm : c ∈ digits.map (·.1) := List.mem_map.mpr ⟨_, h, rfl⟩
    rcases hb with rfl | rfl
    · revert hlt; revert hm; clear h; generalize c = x; revert x; decide +kernel
    · revert hlt; revert hm; clear h; generalize c = x; revert x; decide +kernel

theorem digit_value {c : Char} {d : Nat} (h : (c, d) ∈ digits) : d = digitValue c := by
  have : ∀ p ∈ digits, p.2 = digitValue p.1 := by decide
  exact this _ h

theorem numeral_iff (base : Nat) (hb : base = 10 ∨ base = 16) (t : Str) (n : Nat) :
    Numeral base t n ↔ t ≠ [] ∧ (∀ c ∈ t, isDigitIn base c = true) ∧ n = numberIn base t := by
  constructor
  · intro h
    induction h with
    | one h hd =>
      have := digit_value h; subst this
      refine ⟨by simp, ?_, by simp [numberIn]⟩
      intro c hc; simp at hc; subst hc
      exact (digit_iff base hb _).2 ⟨h, hd⟩
    | more ht h hd ih =>
      have := digit_value h; subst this
      refine ⟨by simp, ?_, ?_⟩
      · intro c hc
        rcases List.mem_append.mp hc with hc | hc
        · exact ih.2.1 c hc
        · simp at hc; subst hc; exact (digit_iff base hb _).2 ⟨h, hd⟩
      · rw [ih.2.2]; simp [numberIn]
  · rintro ⟨hne, hall, rfl⟩
    obtain ⟨r, rfl⟩ : ∃ r : Str, t = r.reverse := ⟨t.reverse, by simp⟩
    induction r with
    | nil => simp at hne
    | cons c r ih =>
      have hc := (digit_iff base hb c).1 (hall c (by simp))
      rw [List.reverse_cons] at hall ⊢
      cases r with
      | nil =>
        simp only [List.reverse_nil, List.nil_append]
        have := Numeral.one hc.1 hc.2
        simpa [numberIn] using this
      | cons d r =>
        have h := ih (by simp) (fun x hx => hall x (List.mem_append_left _ hx))
        have := Numeral.more h hc.1 hc.2
        simpa [numberIn] using this

theorem runeOf_iff {n : Nat} {c : Char} : (¬ n > 0x10FFFF ∧ c = runeOf n) ↔ Code n c := by
  unfold runeOf Code
  constructor
  · rintro ⟨hn, rfl⟩
    by_cases hv : n.isValidChar
    · rw [if_pos hv]
      left
      rw [Char.ofNat, dif_pos hv]
      rfl
    · rw [if_neg hv]
      right
      simp only [Nat.isValidChar] at hv
      exact ⟨by omega, by omega, rfl⟩
  · rintro (h | ⟨h1, h2, h3⟩)
    · subst h
      refine ⟨by have := char_lt c; omega, ?_⟩
      rw [if_pos (show c.toNat.isValidChar from c.valid), Char.ofNat_toNat]
    · refine ⟨by omega, ?_⟩
      rw [if_neg, h3]
      simp only [Nat.isValidChar]
      omega

theorem semicolon_digit (base : Nat) : isDigitIn base ';' = false := by
  simp [isDigitIn]

theorem readNumeric_iff {base : Nat} (hb : base = 10 ∨ base = 16) {s r : Str} {c : Char} :
    readNumeric base s = .ok (c, r) ↔ ∃ ds n, s = ds ++ ';' :: r ∧ Numeral base ds n ∧ Code n c := by
  unfold readNumeric
  constructor
  · intro h
    cases hd : s.dropWhile (isDigitIn base) with
    | nil => simp only [hd] at h; cases h
    | cons x q =>
      simp only [hd] at h
      by_cases hx : x ≠ ';'
      · rw [if_pos hx] at h; cases h
      · rw [if_neg hx] at h
        have hx := Classical.not_not.mp hx
        subst hx
        by_cases hds : s.takeWhile (isDigitIn base) = []
        · rw [if_pos hds] at h; cases h
        · rw [if_neg hds] at h
          by_cases hn : numberIn base (s.takeWhile (isDigitIn base)) > 0x10FFFF
          · rw [if_pos hn] at h; cases h
          · rw [if_neg hn] at h
            cases h
            refine ⟨s.takeWhile (isDigitIn base), _, ?_, (numeral_iff base hb _ _).2 ⟨hds, ?_, rfl⟩, runeOf_iff.1 ⟨hn, rfl⟩⟩
            · rw [← hd, List.takeWhile_append_dropWhile]
            · exact fun c hc => List.all_eq_true.mp (List.all_takeWhile) c hc
  · rintro ⟨ds, n, rfl, hn, hc⟩
    obtain ⟨hne, hall, rfl⟩ := (numeral_iff base hb _ _).1 hn
    have := takeWhile_append (p := isDigitIn base) (a := ds) (b := ';' :: r) hall
      (fun c q h => by cases h; exact semicolon_digit base)
    obtain ⟨hle, rfl⟩ := runeOf_iff.2 hc
    simp only [this.1, this.2]
    rw [if_neg (by simp), if_neg hne, if_neg hle]

theorem entities_get (name : Str) (c : Char) : GoMap.get? entities name = some c ↔ (name, c) ∈ predefined := by
  constructor
  · intro h
    simp only [entities, GoMap.get?] at h
    repeat' split at h
    all_goals first | (cases h; rename_i hn; subst hn; decide) | cases h
  · intro h
    simp only [predefined, List.mem_cons, List.not_mem_nil, or_false, Prod.mk.injEq] at h
    rcases h with ⟨rfl, rfl⟩ | ⟨rfl, rfl⟩ | ⟨rfl, rfl⟩ | ⟨rfl, rfl⟩ | ⟨rfl, rfl⟩ <;> rfl

theorem predefined_chars {name : Str} {c : Char} (h : (name, c) ∈ predefined) : (∀ x ∈ name, inName x = true) ∧ name ≠ [] ∧ '#' ∉ name := by
  have : ∀ p ∈ predefined, (∀ x ∈ p.1, inName x = true) ∧ p.1 ≠ [] ∧ '#' ∉ p.1 := by decide
  exact this _ h

theorem readNamed_iff {s r : Str} {c : Char} : readNamed s = .ok (c, r) ↔ ∃ name, s = name ++ ';' :: r ∧ (name, c) ∈ predefined := by
  unfold readNamed
  constructor
  · intro h
    cases hd : s.dropWhile inName with
    | nil => simp only [hd] at h; cases h
    | cons x q =>
      simp only [hd] at h
      by_cases hx : x ≠ ';'
      · rw [if_pos hx] at h; cases h
      · rw [if_neg hx] at h
        have hx := Classical.not_not.mp hx
        subst hx
        cases hg : GoMap.get? entities (s.takeWhile inName) with
        | none => rw [hg] at h; cases h
        | some y =>
          rw [hg] at h
          cases h
          exact ⟨s.takeWhile inName, by rw [← hd, List.takeWhile_append_dropWhile], (entities_get _ _).1 hg⟩
  · rintro ⟨name, rfl, h⟩
    have := takeWhile_append (p := inName) (a := name) (b := ';' :: r) (predefined_chars h).1
      (fun c q h => by cases h; rfl)
    simp only [this.1, this.2, (entities_get _ _).2 h]
    rfl

theorem readEntity_iff {s r : Str} {c : Char} : readEntity s = .ok (c, r) ↔ ∃ t, '&' :: s = t ++ r ∧ Reference t c := by
  unfold readEntity
  constructor
  · intro h
    cases s with
    | nil => cases h
    | cons x q =>
      simp only at h
      by_cases hx : x ≠ '#'
      · rw [if_pos hx] at h
        obtain ⟨name, hs, hn⟩ := readNamed_iff.1 h
        exact ⟨'&' :: (name ++ [';']), by rw [hs]; simp, .named hn⟩
      · rw [if_neg hx] at h
        have hx := Classical.not_not.mp hx
        subst hx
        cases q with
        | nil => cases h
        | cons d q' =>
          simp only at h
          by_cases hd : d = 'x'
          · rw [if_pos hd] at h
            subst hd
            obtain ⟨ds, n, hs, hn, hc⟩ := (readNumeric_iff (.inr rfl)).1 h
            exact ⟨'&' :: '#' :: 'x' :: (ds ++ [';']), by rw [hs]; simp, .hex hn hc⟩
          · rw [if_neg hd] at h
            obtain ⟨ds, n, hs, hn, hc⟩ := (readNumeric_iff (.inl rfl)).1 h
            exact ⟨'&' :: '#' :: (ds ++ [';']), by rw [hs]; simp, .decimal hn hc⟩
  · rintro ⟨t, hs, ht⟩
    cases ht with
    | @named name _ h =>
      simp only [List.cons_append, List.append_assoc, List.nil_append, List.cons.injEq, true_and] at hs
      have hp := predefined_chars h
      cases name with
      | nil => exact absurd rfl hp.2.1
      | cons x name =>
        have hx : x ≠ '#' := fun hx => hp.2.2 (by simp [hx])
        rw [hs]
        simp only [List.cons_append]
        rw [if_pos hx]
        exact readNamed_iff.2 ⟨x :: name, rfl, h⟩
    | @decimal ds n _ hd hc =>
      simp only [List.cons_append, List.append_assoc, List.nil_append, List.cons.injEq, true_and] at hs
      have hn := (numeral_iff 10 (.inl rfl) _ _).1 hd
      cases ds with
      | nil => exact absurd rfl hn.1
      | cons x ds =>
        have hx : x ≠ 'x' := fun hx => by
          have := hn.2.1 x (by simp)
          subst hx
          exact absurd this (by decide)
        rw [hs]
        simp only [List.cons_append]
        rw [if_neg (by simp), if_neg hx]
        exact (readNumeric_iff (.inl rfl)).2 ⟨x :: ds, n, rfl, hd, hc⟩
    | @hex ds n _ hd hc =>
      simp only [List.cons_append, List.append_assoc, List.nil_append, List.cons.injEq, true_and] at hs
      rw [hs]
      simp only
      rw [if_neg (by simp), if_pos trivial]
      exact (readNumeric_iff (.inr rfl)).2 ⟨ds, n, rfl, hd, hc⟩

theorem reference_shape {t : Str} {c : Char} (h : Reference t c) : ∃ m, t = '&' :: (m ++ [';']) ∧ '>' ∉ m := by
  have hdig : ∀ base, (base = 10 ∨ base = 16) → ∀ ds n, Numeral base ds n → '>' ∉ ds := by
    intro base hb ds n hn hm
    have := ((numeral_iff base hb _ _).1 hn).2.1 _ hm
    rcases hb with rfl | rfl <;> exact absurd this (by decide)
  cases h with
  | named h =>
    refine ⟨_, rfl, fun hm => ?_⟩
    exact absurd ((predefined_chars h).1 _ hm) (by decide)
  | @decimal ds n _ hd hc =>
    exact ⟨'#' :: ds, rfl, fun hm => by simp at hm; exact hdig 10 (.inl rfl) _ _ hd hm⟩
  | @hex ds n _ hd hc =>
    exact ⟨'#' :: 'x' :: ds, rfl, fun hm => by simp at hm; exact hdig 16 (.inr rfl) _ _ hd hm⟩

theorem reference_unique {t u r q : Str} {c d : Char} (h : Reference t c) (h' : Reference u d) (he : t ++ r = u ++ q) :
    c = d ∧ r = q := by
  obtain ⟨m, rfl, _⟩ := reference_shape h
  have h1 := (readEntity_iff (s := m ++ [';'] ++ r) (r := r)).2 ⟨_, rfl, h⟩
  have h2 := (readEntity_iff (s := m ++ [';'] ++ r) (r := q)).2 ⟨u, he, h'⟩
  rw [h1] at h2
  cases h2
  exact ⟨rfl, rfl⟩

/-! ### text -/

theorem occurs_cons {t s : Str} {c : Char} : Occurs t (c :: s) ↔ (∃ b, c :: s = t ++ b) ∨ Occurs t s := by
  constructor
  · rintro ⟨a, b, h⟩
    cases a with
    | nil => exact .inl ⟨b, by simpa using h⟩
    | cons d a => simp at h; exact .inr ⟨a, b, by simpa using h.2⟩
  · rintro (⟨b, h⟩ | ⟨a, b, h⟩)
    · exact ⟨[], b, by simpa using h⟩
    · exact ⟨c :: a, b, by simp [h]⟩

theorem occurs_sep {t a b : Str} {x : Char} (hx : x ∉ t) : Occurs t (a ++ x :: b) ↔ Occurs t a ∨ Occurs t b := by
  constructor
  · rintro ⟨p, q, h⟩
    have hm := h
    rw [List.append_assoc, List.append_eq_append_iff] at hm
    rcases hm with ⟨a', h1, h2⟩ | ⟨c', h1, h2⟩
    · -- p = a ++ a', x :: b = a' ++ (t ++ q)
      cases a' with
      | nil =>
        cases t with
        | nil => exact .inr ⟨[], b, by simp⟩
        | cons y t => simp at h2; exact absurd (by simp [h2.1]) hx
      | cons y a' =>
        simp at h2
        exact .inr ⟨a', q, by simpa using h2.2⟩
    · -- a = p ++ c', t ++ q = c' ++ x :: b
      rw [List.append_eq_append_iff] at h2
      rcases h2 with ⟨d, h3, h4⟩ | ⟨d, h3, h4⟩
      · exact .inl ⟨p, d, by rw [h1, h3]; simp⟩
      · cases d with
        | nil => exact .inl ⟨p, [], by rw [h1]; simp at h3; simp [h3]⟩
        | cons y d => simp at h4; exact absurd (by rw [h3, ← h4.1]; simp) hx
  · rintro (⟨p, q, h⟩ | ⟨p, q, h⟩)
    · exact ⟨p, q ++ x :: b, by rw [h]; simp⟩
    · exact ⟨a ++ x :: p, q, by rw [h]; simp⟩

theorem occurs_append_left {t a b : Str} (h : Occurs t a) : Occurs t (a ++ b) := by
  obtain ⟨p, q, rfl⟩ := h
  exact ⟨p, q ++ b, by simp⟩

theorem occurs_append_right {t a b : Str} (h : Occurs t b) : Occurs t (a ++ b) := by
  obtain ⟨p, q, rfl⟩ := h
  exact ⟨a ++ p, q, by simp⟩

/-- What stands for itself in a mode. -/
def Plain (m : Mode) (c : Char) : Prop :=
  match m with
  | .plain => c ≠ '<' ∧ c ≠ '&'
  | .cdata => True
  | .quoted q => c ≠ '<' ∧ c ≠ '&' ∧ c ≠ q

/-- Whether there are references in a mode. -/
def Refs (m : Mode) : Prop := m ≠ .cdata

/-- Text after a carriage return (`p`) or not. -/
def TextAfter (m : Mode) (p : Prop) (u t : Str) : Prop :=
  (p ∧ ∃ u', u = '\n' :: u' ∧ Text (Plain m) (Refs m) u' t) ∨ ((p → ∀ q, u ≠ '\n' :: q) ∧ Text (Plain m) (Refs m) u t)

/-- How the text of a mode ends: what is left, from where the text ended. -/
def Stops (m : Mode) (before : Str) (s r : Str) : Prop :=
  match m with
  | .plain => s = r ∧ (r = [] ∨ ∃ q, r = '<' :: q)
  | .cdata => s = '>' :: r ∧ ∃ a, before = a ++ c!"]]"
  | .quoted q => s = q :: r

theorem textAfter_cr {m : Mode} {u t : Str} (h : TextAfter m True u t) : Text (Plain m) (Refs m) ('\r' :: u) ('\n' :: t) := by
  rcases h with ⟨_, u', rfl, h⟩ | ⟨h1, h2⟩
  · exact .crlf h
  · exact .cr (h1 trivial) h2

theorem textAfter_false {m : Mode} {p : Prop} (hp : ¬ p) {u t : Str} : TextAfter m p u t ↔ Text (Plain m) (Refs m) u t := by
  constructor
  · rintro (⟨h, _⟩ | ⟨_, h⟩)
    · exact absurd h hp
    · exact h
  · exact fun h => .inr ⟨fun h => absurd h hp, h⟩

/-- The last characters. -/
def before (b0 b1 : Option Char) : Str := b0.toList ++ b1.toList

theorem xmlChar_nl : XmlChar '\n' := .inl (by simp)

theorem occurs_step {b0 b1 : Option Char} {b : Char} {u : Str} (hbb : b0 ≠ none → b1 ≠ none) :
    Occurs c!"]]>" (before b0 b1 ++ b :: u) ↔
      (b0 = some ']' ∧ b1 = some ']' ∧ b = '>') ∨ Occurs c!"]]>" (before b1 (some b) ++ u) := by
  cases b0 with
  | none =>
    simp only [before, Option.toList_none, List.nil_append, Option.toList_some, List.append_assoc, List.singleton_append]
    constructor
    · exact .inr
    · rintro (⟨h, _⟩ | h)
      · cases h
      · exact h
  | some x =>
    cases b1 with
    | none => exact absurd rfl (hbb (by simp))
    | some y =>
      simp only [before, Option.toList_some, List.singleton_append, List.cons_append, List.nil_append]
      rw [occurs_cons]
      constructor
      · rintro (⟨q, h⟩ | h)
        · simp at h; exact .inl ⟨by simp [h], by simp [h], by simp [h]⟩
        · exact .inr h
      · rintro (⟨h1, h2, h3⟩ | h)
        · cases h1; cases h2; subst h3; exact .inl ⟨u, rfl⟩
        · exact .inr h

theorem occurs_short {b0 b1 : Option Char} : ¬ Occurs c!"]]>" (before b0 b1) := by
  rintro ⟨a, b, h⟩
  have := congrArg List.length h
  cases b0 <;> cases b1 <;> simp [before] at this <;> omega

theorem occurs_ref {b0 b1 : Option Char} {m u : Str} (hm : '>' ∉ m) :
    Occurs c!"]]>" (before b0 b1 ++ ('&' :: (m ++ [';']) ++ u)) ↔ Occurs c!"]]>" u := by
  have h1 : before b0 b1 ++ ('&' :: (m ++ [';']) ++ u) = before b0 b1 ++ '&' :: (m ++ ';' :: u) := by simp
  rw [h1, occurs_sep (by decide), occurs_sep (by decide)]
  constructor
  · rintro (h | h | h)
    · exact absurd h occurs_short
    · obtain ⟨a, b, h⟩ := h
      exact absurd (by rw [h]; simp) hm
    · exact h
  · exact fun h => .inr (.inr h)

theorem scan_sound (m : Mode) : ∀ (n : Nat) (b0 b1 : Option Char) (s t r : Str), s.length < n → (b0 ≠ none → b1 ≠ none) →
    scanText m b0 b1 s = .ok (t, r) → (∀ c ∈ t, XmlChar c) →
    ∃ u s', s = u ++ s' ∧ Stops m (before b0 b1 ++ u) s' r ∧ TextAfter m (b1 = some '\r') u t ∧
      ((m = .plain ∨ m = .cdata) → ¬ Occurs c!"]]>" (before b0 b1 ++ u)) := by
  intro n
  induction n with
  | zero => intro b0 b1 s t r h; omega
  | succ n ih =>
    intro b0 b1 s t r hn hbb h hx
    rw [scanText.eq_def] at h
    cases s with
    | nil =>
      simp only at h
      by_cases hm : m = .plain
      · rw [if_pos hm] at h
        cases h
        subst hm
        exact ⟨[], [], rfl, ⟨rfl, .inl rfl⟩, .inr ⟨fun _ q => by simp, .nil⟩, fun _ => by simpa using occurs_short⟩
      · rw [if_neg hm] at h; cases h
    | cons b s =>
      simp only at h
      simp only [List.length_cons] at hn
      by_cases h1 : (m = .plain ∨ m = .cdata) ∧ b0 = some ']' ∧ b1 = some ']' ∧ b = '>'
      · rw [if_pos h1] at h
        obtain ⟨_, rfl, rfl, rfl⟩ := h1
        by_cases hm : m = .cdata
        · rw [if_pos hm] at h
          cases h
          subst hm
          refine ⟨[], '>' :: _, rfl, ⟨rfl, [], rfl⟩, .inr ⟨fun _ q => by simp, .nil⟩, fun _ => by simpa using occurs_short⟩
        · rw [if_neg hm] at h; cases h
      · rw [if_neg h1] at h
        by_cases h2 : b = '<' ∧ m ≠ .cdata
        · rw [if_pos h2] at h
          by_cases hm : m = .plain
          · rw [if_pos hm] at h
            cases h
            subst hm
            refine ⟨[], b :: s, rfl, ⟨rfl, .inr ⟨s, by rw [h2.1]⟩⟩, .inr ⟨fun _ q => by simp, .nil⟩,
              fun _ => by simpa using occurs_short⟩
          · rw [if_neg hm] at h; cases h
        · rw [if_neg h2] at h
          by_cases h3 : m = .quoted b
          · rw [if_pos h3] at h
            cases h
            subst h3
            exact ⟨[], b :: _, rfl, rfl, .inr ⟨fun _ q => by simp, .nil⟩, fun h => by rcases h with h | h <;> cases h⟩
          · rw [if_neg h3] at h
            by_cases h4 : b = '&' ∧ m ≠ .cdata
            · rw [if_pos h4] at h
              obtain ⟨rfl, hcd⟩ := h4
              split at h
              · cases h
              · rename_i c r' he
                cases hs : scanText m none none r' with
                | error e => rw [hs] at h; cases h
                | ok q =>
                  obtain ⟨t', q⟩ := q
                  rw [hs] at h
                  cases h
                  have hl := readEntity_length he
                  obtain ⟨tr, htr, href⟩ := readEntity_iff.1 he
                  obtain ⟨u, s', rfl, hst, htx, hoc⟩ := ih none none r' t' r (by omega) (by simp) hs (fun c hc => hx c (by simp [hc]))
                  obtain ⟨m', rfl, hm'⟩ := reference_shape href
                  refine ⟨'&' :: (m' ++ [';']) ++ u, s', by rw [htr]; simp, ?_, ?_, ?_⟩
                  · cases m with
                    | plain => exact hst
                    | cdata => exact absurd rfl hcd
                    | quoted q => exact hst
                  · rw [textAfter_false (by simp)] at htx
                    exact .inr ⟨fun _ q => by simp, .ref hcd href (hx _ (by simp)) htx⟩
                  · intro hm
                    rw [occurs_ref hm']
                    exact hoc hm
            · rw [if_neg h4] at h
              cases hs : scanText m b1 (some b) s with
              | error e => rw [hs] at h; cases h
              | ok q =>
                obtain ⟨t', q⟩ := q
                simp only [hs] at h
                have hsub : ∀ c ∈ t', XmlChar c := by
                  intro c hc
                  apply hx
                  repeat' split at h
                  all_goals (cases h; first | exact hc | exact List.mem_cons_of_mem _ hc)
                obtain ⟨u, s', rfl, hst, htx, hoc⟩ := ih b1 (some b) s t' q (by omega) (by simp) hs hsub
                have hr : r = q := by
                  repeat' split at h
                  all_goals (cases h; rfl)
                subst hr
                have hocc : (m = .plain ∨ m = .cdata) → ¬ Occurs c!"]]>" (before b0 b1 ++ b :: u) := by
                  intro hm ho
                  rw [occurs_step hbb] at ho
                  rcases ho with ho | ho
                  · exact h1 ⟨hm, ho⟩
                  · exact hoc hm ho
                have hstop : Stops m (before b0 b1 ++ b :: u) s' r := by
                  cases m with
                  | plain => exact hst
                  | quoted q => exact hst
                  | cdata =>
                    obtain ⟨e, a, ha⟩ := hst
                    refine ⟨e, b0.toList ++ a, ?_⟩
                    rw [List.append_assoc, ← ha]
                    simp [before]
                refine ⟨b :: u, s', rfl, hstop, ?_, hocc⟩
                have hpl : Plain m b := by
                  cases m with
                  | plain => exact ⟨fun hb => h2 ⟨hb, by simp⟩, fun hb => h4 ⟨hb, by simp⟩⟩
                  | cdata => trivial
                  | quoted q => exact ⟨fun hb => h2 ⟨hb, by simp⟩, fun hb => h4 ⟨hb, by simp⟩, fun hb => h3 (by rw [hb])⟩
                by_cases hb : b = '\r'
                · rw [if_pos hb] at h
                  cases h
                  subst hb
                  refine .inr ⟨fun _ q => by simp, textAfter_cr ?_⟩
                  simpa using htx
                · rw [if_neg hb] at h
                  have hbs : ¬ (some b = some '\r') := fun h => hb (by simpa using h)
                  rw [textAfter_false hbs] at htx
                  by_cases hcr : b1 = some '\r' ∧ b = '\n'
                  · rw [if_pos hcr] at h
                    cases h
                    obtain ⟨rfl, rfl⟩ := hcr
                    exact .inl ⟨rfl, u, rfl, htx⟩
                  · rw [if_neg hcr] at h
                    cases h
                    refine .inr ⟨fun hb1 q hq => ?_, .char hpl (hx _ (by simp)) hb htx⟩
                    simp at hq
                    exact hcr ⟨hb1, hq.1⟩

/-- The quote of a mode is a quote. -/
def QuoteOK (m : Mode) : Prop := ∀ q, m = .quoted q → q ∈ ['"', '\'']

theorem scan_step {m : Mode} (hq : QuoteOK m) {b0 b1 : Option Char} {b : Char} {s t r : Str} (hp : Plain m b)
    (ho : ¬ ((m = .plain ∨ m = .cdata) ∧ b0 = some ']' ∧ b1 = some ']' ∧ b = '>')) (h : scanText m b1 (some b) s = .ok (t, r)) :
    scanText m b0 b1 (b :: s) =
      .ok (if b = '\r' then '\n' :: t else if b1 = some '\r' ∧ b = '\n' then t else b :: t, r) := by
  rw [scanText.eq_def]
  simp only
  rw [if_neg ho, if_neg, if_neg, if_neg, h]
  · simp only
    split
    · rfl
    · split <;> rfl
  · rintro ⟨rfl, hm⟩
    cases m with
    | plain => exact hp.2 rfl
    | cdata => exact hm rfl
    | quoted q => exact hp.2.1 rfl
  · intro hm
    subst hm
    exact hp.2.2 rfl
  · rintro ⟨rfl, hm⟩
    cases m with
    | plain => exact hp.1 rfl
    | cdata => exact hm rfl
    | quoted q => exact hp.1 rfl

theorem plain_cr {m : Mode} (hq : QuoteOK m) : Plain m '\r' := by
  cases m with
  | plain => exact ⟨by decide, by decide⟩
  | cdata => trivial
  | quoted q =>
    refine ⟨by decide, by decide, ?_⟩
    rintro rfl
    exact absurd (hq _ rfl) (by decide)

theorem plain_nl {m : Mode} (hq : QuoteOK m) : Plain m '\n' := by
  cases m with
  | plain => exact ⟨by decide, by decide⟩
  | cdata => trivial
  | quoted q =>
    refine ⟨by decide, by decide, ?_⟩
    rintro rfl
    exact absurd (hq _ rfl) (by decide)

theorem stops_cons {m : Mode} {b0 b1 : Option Char} {b : Char} {u s' r : Str} (hbb : b0 ≠ none → b1 ≠ none)
    (h : Stops m (before b0 b1 ++ b :: u) s' r) : Stops m (before b1 (some b) ++ u) s' r := by
  cases m with
  | plain => exact h
  | quoted q => exact h
  | cdata =>
    obtain ⟨h1, a, h2⟩ := h
    refine ⟨h1, ?_⟩
    cases b0 with
    | none => exact ⟨a, by simpa [before] using h2⟩
    | some x =>
      cases b1 with
      | none => exact absurd rfl (hbb (by simp))
      | some y =>
        cases a with
        | nil => simp [before] at h2
        | cons z a =>
          simp only [before, Option.toList_some, List.append_assoc, List.singleton_append, List.cons_append, List.cons.injEq] at h2
          exact ⟨a, by simpa [before] using h2.2⟩

theorem before_two {b0 b1 : Option Char} {a : Str} (h : before b0 b1 = a ++ c!"]]") : b0 = some ']' ∧ b1 = some ']' := by
  cases b0 with
  | none => cases b1 <;> cases a <;> simp [before] at h
  | some x =>
    cases b1 with
    | none => cases a <;> simp [before] at h
    | some y =>
      cases a with
      | nil => simp [before] at h; simp [h]
      | cons z a =>
        have := congrArg List.length h
        simp [before] at this

theorem scan_complete {m : Mode} (hq : QuoteOK m) {u t : Str} (h : Text (Plain m) (Refs m) u t) :
    ∀ (b0 b1 : Option Char) (s' r : Str), (b0 ≠ none → b1 ≠ none) → (b1 = some '\r' → ∀ q, u ≠ '\n' :: q) →
      Stops m (before b0 b1 ++ u) s' r → ((m = .plain ∨ m = .cdata) → ¬ Occurs c!"]]>" (before b0 b1 ++ u)) →
      scanText m b0 b1 (u ++ s') = .ok (t, r) := by
  induction h with
  | nil =>
    intro b0 b1 s' r hbb hcr hst hoc
    rw [List.nil_append, scanText.eq_def]
    cases m with
    | plain =>
      obtain ⟨rfl, rfl | ⟨q, rfl⟩⟩ := hst
      · rfl
      · simp only
        rw [if_neg (by simp), if_pos (by simp), if_pos trivial]
    | cdata =>
      obtain ⟨rfl, a, ha⟩ := hst
      rw [List.append_nil] at ha
      obtain ⟨rfl, rfl⟩ := before_two ha
      simp
    | quoted q =>
      have hst : s' = q :: r := hst
      subst hst
      have hqq := hq q rfl
      simp only
      rw [if_neg (by simp), if_neg, if_pos trivial]
      rintro ⟨rfl, _⟩
      exact absurd hqq (by decide)
  | @char c t s hc hx hr h ih =>
    intro b0 b1 s' r hbb hcr hst hoc
    have := ih b1 (some c) s' r (by simp) (fun h => absurd (by simpa using h) hr) (stops_cons hbb hst)
      (fun hm ho => hoc hm ((occurs_step hbb).2 (.inr ho)))
    rw [List.cons_append, scan_step hq hc (fun h1 => hoc h1.1 ((occurs_step hbb).2 (.inl h1.2))) this, if_neg hr, if_neg]
    rintro ⟨h1, rfl⟩
    exact hcr h1 _ rfl
  | @ref tr t s c hrefs hr hx h ih =>
    intro b0 b1 s' r hbb hcr hst hoc
    obtain ⟨mm, rfl, hm'⟩ := reference_shape hr
    have := ih none none s' r (by simp) (by simp)
      (by
        cases m with
        | plain => exact hst
        | cdata => exact absurd rfl hrefs
        | quoted q => exact hst)
      (fun hm ho => hoc hm ((occurs_ref hm').2 ho))
    have he : readEntity (mm ++ [';'] ++ (t ++ s')) = .ok (c, t ++ s') := readEntity_iff.2 ⟨_, by simp, hr⟩
    have hl : '&' :: (mm ++ [';']) ++ t ++ s' = '&' :: (mm ++ [';'] ++ (t ++ s')) := by simp
    rw [hl, scanText.eq_def]
    simp only
    rw [if_neg (by simp), if_neg (by simp), if_neg, if_pos ⟨trivial, hrefs⟩]
    · split
      · rename_i e he'
        rw [he] at he'; cases he'
      · rename_i c' r' he'
        rw [he] at he'; cases he'
        rw [this]
    · rintro rfl
      exact absurd (hq _ rfl) (by decide)
  | @crlf t s h ih =>
    intro b0 b1 s' r hbb hcr hst hoc
    have hst1 := stops_cons hbb hst
    have hoc1 : (m = .plain ∨ m = .cdata) → ¬ Occurs c!"]]>" (before b1 (some '\r') ++ '\n' :: t) :=
      fun hm ho => hoc hm ((occurs_step hbb).2 (.inr ho))
    have hst2 := stops_cons (by simp) hst1
    have := ih (some '\r') (some '\n') s' r (by simp) (by simp) hst2
      (fun hm ho => hoc1 hm ((occurs_step (by simp)).2 (.inr ho)))
    have h1 := scan_step hq (plain_nl hq) (b0 := b1) (b1 := some '\r') (by simp) this
    have h2 := scan_step hq (plain_cr hq) (b0 := b0) (b1 := b1) (by simp) h1
    rw [List.cons_append, List.cons_append, h2]
    simp
  | @cr t s ht h ih =>
    intro b0 b1 s' r hbb hcr hst hoc
    have := ih b1 (some '\r') s' r (by simp) (fun _ => ht) (stops_cons hbb hst)
      (fun hm ho => hoc hm ((occurs_step hbb).2 (.inr ho)))
    rw [List.cons_append, scan_step hq (plain_cr hq) (by simp) this, if_pos rfl]

theorem text_xmlChar {plain : Char → Prop} {refs : Prop} {u t : Str} (h : Text plain refs u t) : ∀ c ∈ t, XmlChar c := by
  induction h with
  | nil => simp
  | char hc hx hr h ih => intro x hxm; exact (List.mem_cons.mp hxm).elim (fun e => e ▸ hx) (ih x)
  | ref hrefs hr hx h ih => intro x hxm; exact (List.mem_cons.mp hxm).elim (fun e => e ▸ hx) (ih x)
  | crlf h ih => intro x hxm; exact (List.mem_cons.mp hxm).elim (fun e => e ▸ xmlChar_nl) (ih x)
  | cr ht h ih => intro x hxm; exact (List.mem_cons.mp hxm).elim (fun e => e ▸ xmlChar_nl) (ih x)

theorem all_inRange {t : Str} : t.all inRange = true ↔ ∀ c ∈ t, XmlChar c := by
  simp only [List.all_eq_true, inRange_iff]

/-- Text between markup. -/
theorem readPlain_iff {s t r : Str} :
    readText .plain s = .ok (t, r) ↔ ∃ u, s = u ++ r ∧ CharData u t ∧ (r = [] ∨ ∃ q, r = '<' :: q) := by
  unfold readText
  constructor
  · intro h
    cases hs : scanText .plain none none s with
    | error e => rw [hs] at h; cases h
    | ok q =>
      obtain ⟨t', r'⟩ := q
      rw [hs] at h
      simp only [reduceCtorEq, if_false] at h
      split at h
      · rename_i ha
        cases h
        obtain ⟨u, s', rfl, ⟨rfl, hst⟩, htx, hoc⟩ := scan_sound .plain _ none none s t r (Nat.lt_succ_self _) (by simp) hs (all_inRange.1 ha)
        rw [textAfter_false (by simp)] at htx
        refine ⟨u, rfl, ⟨?_, by simpa [before] using hoc⟩, hst⟩
        have : Refs .plain = True := by simp [Refs]
        rw [this] at htx
        exact htx
      · cases h
  · rintro ⟨u, rfl, ⟨htx, ho⟩, hr⟩
    have htx' : Text (Plain .plain) (Refs .plain) u t := by
      have : Refs .plain = True := by simp [Refs]
      rw [this]; exact htx
    rw [scan_complete (m := .plain) (by intro q h; cases h) htx' none none r r (by simp) (by simp) ⟨rfl, hr⟩ (by simpa [before] using ho)]
    simp only [reduceCtorEq, if_false]
    rw [if_pos (all_inRange.2 (text_xmlChar htx))]

/-- A quoted value. -/
theorem readQuoted_iff {q : Char} (hq : q ∈ ['"', '\'']) {s t r : Str} :
    readText (.quoted q) s = .ok (t, r) ↔ ∃ u, s = u ++ q :: r ∧ Text (fun c => c ≠ '<' ∧ c ≠ '&' ∧ c ≠ q) True u t := by
  have hrefs : Refs (.quoted q) = True := by simp [Refs]
  unfold readText
  constructor
  · intro h
    cases hs : scanText (.quoted q) none none s with
    | error e => rw [hs] at h; cases h
    | ok p =>
      obtain ⟨t', r'⟩ := p
      rw [hs] at h
      simp only [reduceCtorEq, if_false] at h
      split at h
      · rename_i ha
        cases h
        obtain ⟨u, s', rfl, hst, htx, hoc⟩ := scan_sound _ _ none none s t r (Nat.lt_succ_self _) (by simp) hs (all_inRange.1 ha)
        rw [textAfter_false (by simp), hrefs] at htx
        have hst : s' = q :: r := hst
        exact ⟨u, by rw [hst], htx⟩
      · cases h
  · rintro ⟨u, rfl, htx⟩
    have htx' : Text (Plain (.quoted q)) (Refs (.quoted q)) u t := by rw [hrefs]; exact htx
    rw [scan_complete (m := .quoted q) (by intro p h; cases h; exact hq) htx' none none (q :: r) r (by simp) (by simp) rfl (by simp)]
    simp only [reduceCtorEq, if_false]
    rw [if_pos (all_inRange.2 (text_xmlChar htx))]

theorem text_snoc_bracket {u t : Str} (h : Text (fun _ => True) False u t) : Text (fun _ => True) False (u ++ [']']) (t ++ [']']) := by
  induction h with
  | nil => exact .char trivial (.inr (.inl (by decide))) (by decide) .nil
  | char hc hx hr h ih => exact .char hc hx hr ih
  | ref hrefs hr hx h ih => exact absurd hrefs id
  | crlf h ih => exact .crlf ih
  | @cr t s ht h ih =>
    refine .cr ?_ ih
    intro q hq
    cases t with
    | nil => simp at hq
    | cons c t => simp at hq; exact ht t (by rw [hq.1])

theorem text_nil {plain : Char → Prop} {refs : Prop} {t : Str} (h : Text plain refs [] t) : t = [] := by
  generalize hu : ([] : Str) = u at h
  cases h with
  | nil => rfl
  | char => cases hu
  | ref hrefs hr hx h =>
    obtain ⟨m, rfl, _⟩ := reference_shape hr
    simp at hu
  | crlf => cases hu
  | cr => cases hu

theorem ends_brackets {x t a : Str} {c : Char} (hc : c ≠ ']') (h : x ++ c :: t = a ++ c!"]]") : ∃ a', t = a' ++ c!"]]" := by
  rcases List.eq_nil_or_concat t with rfl | ⟨t', y, rfl⟩
  · have := congrArg List.getLast? h
    simp at this
    exact absurd this hc
  · rcases List.eq_nil_or_concat t' with rfl | ⟨t'', z, rfl⟩
    · have := congrArg (fun l : Str => l.reverse.tail.head?) h
      simp at this
      exact absurd this hc
    · refine ⟨t'', ?_⟩
      have h1 := congrArg (fun l : Str => l.reverse.head?) h
      have h2 := congrArg (fun l : Str => l.reverse.tail.head?) h
      simp at h1 h2
      simp [h1, h2]

theorem scan_cdata_last : ∀ (n : Nat) (b0 b1 : Option Char) (s t r : Str), s.length < n →
    scanText .cdata b0 b1 s = .ok (t, r) → ∃ a, before b0 b1 ++ t = a ++ c!"]]" := by
  intro n
  induction n with
  | zero => intro b0 b1 s t r h; omega
  | succ n ih =>
    intro b0 b1 s t r hn h
    rw [scanText.eq_def] at h
    cases s with
    | nil => simp only [reduceCtorEq, if_false] at h; cases h
    | cons b s =>
      simp only [List.length_cons] at hn
      simp only [reduceCtorEq, or_true, true_and, if_true, ne_eq, not_true, and_false, if_false] at h
      split at h
      · rename_i h1
        cases h
        obtain ⟨rfl, rfl, rfl⟩ := h1
        exact ⟨[], rfl⟩
      · cases hs : scanText .cdata b1 (some b) s with
        | error e => rw [hs] at h; cases h
        | ok q =>
          obtain ⟨t', q⟩ := q
          obtain ⟨a, ha⟩ := ih b1 (some b) s t' q (by omega) hs
          have ha' : b1.toList ++ b :: t' = a ++ c!"]]" := by simpa [before] using ha
          simp only [hs] at h
          split at h
          · rename_i hb
            cases h
            obtain ⟨a', ha''⟩ := ends_brackets (by rw [hb]; decide) ha'
            exact ⟨before b0 b1 ++ '\n' :: a', by rw [ha'']; simp⟩
          · split at h
            · rename_i hb
              cases h
              obtain ⟨a', ha''⟩ := ends_brackets (by rw [hb.2]; decide) ha'
              exact ⟨before b0 b1 ++ a', by rw [ha'']; simp⟩
            · cases h
              exact ⟨b0.toList ++ a, by rw [List.append_assoc, ← ha']; simp [before]⟩

theorem text_unsnoc_bracket {u t : Str} (h : Text (fun _ => True) False (u ++ [']']) t) :
    ∃ t', t = t' ++ [']'] ∧ Text (fun _ => True) False u t' := by
  generalize hv : u ++ [']'] = v at h
  induction h generalizing u with
  | nil => simp at hv
  | @char c t s hc hx hr h ih =>
    cases u with
    | nil =>
      simp at hv
      obtain ⟨rfl, rfl⟩ := hv
      exact ⟨[], by rw [text_nil h]; rfl, .nil⟩
    | cons d u =>
      simp at hv
      obtain ⟨rfl, hv⟩ := hv
      obtain ⟨t', rfl, h'⟩ := ih hv
      exact ⟨d :: t', rfl, .char hc hx hr h'⟩
  | ref hrefs hr hx h ih => exact absurd hrefs id
  | @crlf t s h ih =>
    cases u with
    | nil => simp at hv
    | cons d u =>
      cases u with
      | nil => simp at hv
      | cons e u =>
        simp at hv
        obtain ⟨rfl, rfl, hv⟩ := hv
        obtain ⟨t', rfl, h'⟩ := ih hv
        exact ⟨'\n' :: t', rfl, .crlf h'⟩
  | @cr t s ht h ih =>
    cases u with
    | nil => simp at hv
    | cons d u =>
      simp at hv
      obtain ⟨rfl, hv⟩ := hv
      obtain ⟨t', rfl, h'⟩ := ih hv
      refine ⟨'\n' :: t', rfl, .cr ?_ h'⟩
      rintro q rfl
      exact ht (q ++ [']']) (by rw [← hv]; rfl)

theorem occurs_brackets {u : Str} : Occurs c!"]]>" (u ++ c!"]]") ↔ Occurs c!"]]>" u := by
  constructor
  · rintro ⟨a, b, h⟩
    rcases List.eq_nil_or_concat b with rfl | ⟨b', x, rfl⟩
    · have := congrArg List.getLast? h
      simp at this
    · rcases List.eq_nil_or_concat b' with rfl | ⟨b'', y, rfl⟩
      · have := congrArg (fun l : Str => l.reverse.tail.head?) h
        simp at this
      · refine ⟨a, b'', ?_⟩
        have := congrArg (fun l : Str => l.reverse.tail.tail.reverse) h
        simpa using this
  · exact occurs_append_left

/-- A CDATA section, after `<![CDATA[`. -/
theorem readCData_iff {s t r : Str} :
    readText .cdata s = .ok (t, r) ↔
      ∃ u, s = u ++ c!"]]>" ++ r ∧ Text (fun _ => True) False u t ∧ ¬ Occurs c!"]]>" u := by
  have hrefs : Refs .cdata = False := by simp [Refs]
  unfold readText
  constructor
  · intro h
    cases hs : scanText .cdata none none s with
    | error e => rw [hs] at h; cases h
    | ok p =>
      obtain ⟨t', r'⟩ := p
      rw [hs] at h
      simp only [if_true] at h
      split at h
      · rename_i ha'
        cases h
        obtain ⟨a, ha⟩ := scan_cdata_last _ none none s t' r (Nat.lt_succ_self _) hs
        have ha : t' = (a ++ [']']) ++ [']'] := by simpa [before] using ha
        subst ha
        rw [List.dropLast_concat, List.dropLast_concat] at ha' ⊢
        have hx : ∀ c ∈ (a ++ [']']) ++ [']'], XmlChar c := by
          intro c hc
          simp only [List.mem_append, List.mem_singleton] at hc
          rcases hc with (hc | rfl) | rfl
          · exact all_inRange.1 ha' c hc
          · exact .inr (.inl (by decide))
          · exact .inr (.inl (by decide))
        obtain ⟨u, s', rfl, ⟨rfl, v, hv⟩, htx, hoc⟩ := scan_sound _ _ none none s _ r (Nat.lt_succ_self _) (by simp) hs hx
        rw [textAfter_false (by simp), hrefs] at htx
        have hv : u = (v ++ [']']) ++ [']'] := by simpa [before] using hv
        subst hv
        obtain ⟨t1, h1, htx⟩ := text_unsnoc_bracket htx
        have h1 : a ++ [']'] = t1 := List.append_cancel_right h1
        subst h1
        obtain ⟨t2, h2, htx⟩ := text_unsnoc_bracket htx
        have h2 : a = t2 := List.append_cancel_right h2
        subst h2
        refine ⟨v, by simp, htx, fun ho => hoc (.inr rfl) ?_⟩
        have := occurs_append_left (b := [']', ']']) ho
        simpa [before] using this
      · cases h
  · rintro ⟨u, rfl, htx, ho⟩
    have h1 := text_snoc_bracket (text_snoc_bracket htx)
    have h2 : Text (Plain .cdata) (Refs .cdata) (u ++ c!"]]") (t ++ c!"]]") := by rw [hrefs]; exact (show u ++ c!"]]" = u ++ [']'] ++ [']'] by simp) ▸ (show t ++ c!"]]" = t ++ [']'] ++ [']'] by simp) ▸ h1
    have h3 := scan_complete (m := .cdata) (by intro p h; cases h) h2 none none ('>' :: r) r (by simp) (by simp) ⟨rfl, u, rfl⟩
      (fun _ h => ho (occurs_brackets.1 (by simpa [before] using h)))
    have h4 : u ++ c!"]]>" ++ r = u ++ c!"]]" ++ '>' :: r := by simp
    rw [h4, h3]
    simp only [if_true]
    have h5 : (t ++ c!"]]").dropLast.dropLast = t := by
      have : t ++ c!"]]" = (t ++ [']']) ++ [']'] := by simp
      rw [this, List.dropLast_concat, List.dropLast_concat]
    rw [h5, if_pos (all_inRange.2 (text_xmlChar htx))]

end Rtcg.XmlProofs
