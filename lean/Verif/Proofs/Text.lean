import Verif.Model.Base
import Verif.Spec.Text

namespace Rtcg
open Rtcg.Spec

/-! ### trimming -/

theorem isSpace_eq_white : isSpace = white := by
  funext c
  rw [Bool.eq_iff_iff]
  simp only [isSpace, white, Bool.or_eq_true, Bool.and_eq_true, decide_eq_true_eq, beq_iff_eq, List.mem_cons, List.not_mem_nil,
    or_false]
  omega

theorem trimLeft_def (s : Str) : trimLeft s = s.dropWhile white := by rw [trimLeft, isSpace_eq_white]

theorem trimRight_def (s : Str) : trimRight s = (s.reverse.dropWhile white).reverse := by
  rw [trimRight, isSpace_eq_white]

theorem dropWhile_eq_self_iff' {α} (p : α → Bool) (l : List α) :
    l.dropWhile p = l ↔ ∀ c r, l = c :: r → p c = false := by
  cases l with
  | nil => simp
  | cons c r =>
    simp only [List.dropWhile_cons, List.cons.injEq, and_imp]
    constructor
    · intro h c' r' e1 e2; subst e1 e2
      split at h
      · have := congrArg List.length h
        have h2 := (List.dropWhile_suffix p (l := r)).length_le
        simp at this; omega
      · simp_all
    · intro h; rw [if_neg]; simp [h c r rfl rfl]

theorem trimLeft_eq_self {s : Str} (h : ∀ c r, s = c :: r → white c = false) : trimLeft s = s := by
  rw [trimLeft_def]; exact (dropWhile_eq_self_iff' _ _).2 h

theorem trimRight_eq_self {s : Str} (h : ∀ r c, s = r ++ [c] → white c = false) : trimRight s = s := by
  rw [trimRight_def]
  rw [(dropWhile_eq_self_iff' _ _).2, List.reverse_reverse]
  intro c r e
  apply h r.reverse c
  have := congrArg List.reverse e
  simpa using this

theorem exists_trimLeft (s : Str) : ∃ l, s = l ++ trimLeft s ∧ (∀ c ∈ l, white c = true) := by
  refine ⟨s.takeWhile white, by rw [trimLeft_def, List.takeWhile_append_dropWhile], ?_⟩
  induction s with
  | nil => simp
  | cons c r ih =>
    intro d hd
    rw [List.takeWhile_cons] at hd
    split at hd
    · rename_i hc
      rcases List.mem_cons.1 hd with rfl | h
      · exact hc
      · exact ih _ h
    · simp at hd

theorem trimLeft_head (s : Str) : ∀ c r, trimLeft s = c :: r → white c = false := by
  induction s with
  | nil => simp [trimLeft]
  | cons d t ih =>
    intro c r h
    rw [trimLeft_def, List.dropWhile_cons] at h
    split at h
    · exact ih c r (by rw [trimLeft_def]; exact h)
    · simp only [List.cons.injEq] at h; rw [← h.1]; simp_all

theorem exists_trimRight (s : Str) : ∃ r, s = trimRight s ++ r ∧ (∀ c ∈ r, white c = true) := by
  obtain ⟨l, h1, h2⟩ := exists_trimLeft s.reverse
  refine ⟨l.reverse, ?_, by simpa using h2⟩
  have := congrArg List.reverse h1
  simpa [trimRight, trimLeft] using this

theorem trimRight_last (s : Str) : ∀ r c, trimRight s = r ++ [c] → white c = false := by
  intro r c h
  apply trimLeft_head s.reverse c r.reverse
  have := congrArg List.reverse h
  simpa [trimRight, trimLeft] using this

theorem trimSpace_noOuterSpace (s : Str) : NoOuterSpace (trimSpace s) := by
  refine ⟨?_, trimRight_last _⟩
  intro c r h
  obtain ⟨q, h1, _⟩ := exists_trimRight (trimLeft s)
  apply trimLeft_head s c (r ++ q)
  rw [h1]; simp [trimSpace] at h; simp [h]

theorem trimSpace_of_noOuterSpace {s : Str} (h : NoOuterSpace s) : trimSpace s = s := by
  unfold trimSpace
  rw [trimLeft_eq_self h.1, trimRight_eq_self h.2]

theorem trimSpace_eq_self_iff (s : Str) : trimSpace s = s ↔ NoOuterSpace s :=
  ⟨fun h => h ▸ trimSpace_noOuterSpace s, trimSpace_of_noOuterSpace⟩

theorem trimLeft_append_space {l s : Str} (h : ∀ c ∈ l, white c = true) :
    trimLeft (l ++ s) = trimLeft s := by
  induction l with
  | nil => rfl
  | cons c l ih =>
    simp only [trimLeft_def] at *
    rw [List.cons_append, List.dropWhile_cons, if_pos (h c (by simp))]
    exact ih fun d hd => h d (by simp [hd])

theorem trimRight_append_space {r s : Str} (h : ∀ c ∈ r, white c = true) :
    trimRight (s ++ r) = trimRight s := by
  rw [trimRight_def, trimRight_def]
  have := @trimLeft_append_space r.reverse s.reverse (by simpa using h)
  simp only [trimLeft_def] at this
  rw [List.reverse_append, this]

theorem trimSpace_eq_iff (s t : Str) : trimSpace s = t ↔ Stripped s t := by
  constructor
  · rintro rfl
    refine ⟨trimSpace_noOuterSpace s, ?_⟩
    obtain ⟨l, h1, h2⟩ := exists_trimLeft s
    obtain ⟨r, h3, h4⟩ := exists_trimRight (trimLeft s)
    refine ⟨l, r, ?_, h2, h4⟩
    rw [List.append_assoc, trimSpace, ← h3]; exact h1
  · rintro ⟨h, l, r, rfl, hl, hr⟩
    unfold trimSpace
    rw [List.append_assoc, trimLeft_append_space hl]
    by_cases ht : t = []
    · subst ht
      have : trimLeft ([] ++ r) = [] := by
        have := @trimLeft_append_space r [] hr
        simpa [trimLeft] using this
      rw [this]; rfl
    · rw [trimLeft_eq_self, trimRight_append_space hr, trimRight_eq_self h.2]
      intro c q e
      cases t with
      | nil => exact absurd rfl ht
      | cons d t' => simp at e; exact e.1 ▸ h.1 d t' rfl

theorem trimSpace_idem (s : Str) : trimSpace (trimSpace s) = trimSpace s :=
  trimSpace_of_noOuterSpace (trimSpace_noOuterSpace s)

@[simp] theorem trimSpace_nil : trimSpace [] = [] := rfl

theorem mem_of_mem_trimSpace {s : Str} {c : Char} (h : c ∈ trimSpace s) : c ∈ s := by
  obtain ⟨_, l, r, e, _, _⟩ := (trimSpace_eq_iff s _).1 rfl
  rw [e]; simp [h]

/-! ### cutting -/

theorem cut_eq_none_iff (sep : Char) (s : Str) : cut sep s = none ↔ sep ∉ s := by
  induction s with
  | nil => simp [cut]
  | cons c s ih =>
    unfold cut
    by_cases h : c = sep
    · simp [h]
    · rw [if_neg h]
      cases hs : cut sep s with
      | none => simp [ih.1 hs, Ne.symm h]
      | some p =>
        have : sep ∈ s := by
          refine Classical.byContradiction fun hn => ?_
          rw [ih.2 hn] at hs; cases hs
        simp [this]

theorem cut_eq_some_iff (sep : Char) (s a b : Str) :
    cut sep s = some (a, b) ↔ s = a ++ sep :: b ∧ sep ∉ a := by
  induction s generalizing a with
  | nil => simp [cut]
  | cons c s ih =>
    unfold cut
    by_cases h : c = sep
    · subst h
      simp only [if_true, Option.some.injEq, Prod.mk.injEq]
      constructor
      · rintro ⟨rfl, rfl⟩; simp
      · rintro ⟨h1, h2⟩
        cases a with
        | nil => simp at h1; simp [h1]
        | cons d a => simp at h1; simp [h1.1] at h2
    · rw [if_neg h]
      cases a with
      | nil =>
        simp only [List.nil_append, List.cons.injEq, List.not_mem_nil, not_false_eq_true, and_true]
        constructor
        · intro h'; split at h' <;> simp at h'
        · rintro ⟨h', _⟩; exact absurd h' h
      | cons d a =>
        have := ih a
        cases hs : cut sep s with
        | none =>
          rw [hs] at this
          simp only [List.cons_append, List.cons.injEq]
          constructor
          · intro h'; cases h'
          · rintro ⟨⟨rfl, h1⟩, h2⟩
            simp at h2
            exact absurd (this.2 ⟨h1, h2.2⟩) (by simp)
        | some p =>
          rw [hs] at this
          obtain ⟨p1, p2⟩ := p
          simp only [Option.some.injEq, Prod.mk.injEq, List.cons.injEq, List.cons_append] at this ⊢
          constructor
          · rintro ⟨⟨rfl, h1⟩, h2⟩
            obtain ⟨h3, h4⟩ := this.1 ⟨h1, h2⟩
            exact ⟨⟨rfl, h3⟩, by simp [Ne.symm h, h4]⟩
          · rintro ⟨⟨rfl, h1⟩, h2⟩
            simp at h2
            obtain ⟨h3, h4⟩ := this.2 ⟨h1, h2.2⟩
            exact ⟨⟨rfl, h3⟩, h4⟩

theorem cut_append {sep : Char} {a b : Str} (h : sep ∉ a) : cut sep (a ++ sep :: b) = some (a, b) :=
  (cut_eq_some_iff _ _ _ _).2 ⟨rfl, h⟩

/-- What `SplitN(s, sep, 3)` returns. -/
theorem splitN_three (sep : Char) (s : Str) :
    (sep ∉ s ∧ splitN sep 3 s = [s]) ∨
    (∃ a b, s = a ++ sep :: b ∧ sep ∉ a ∧ sep ∉ b ∧ splitN sep 3 s = [a, b]) ∨
    (∃ a b c, s = a ++ sep :: (b ++ sep :: c) ∧ sep ∉ a ∧ sep ∉ b ∧ splitN sep 3 s = [a, b, c]) := by
  cases h : cut sep s with
  | none => left; exact ⟨(cut_eq_none_iff _ _).1 h, by simp [splitN, h]⟩
  | some p =>
    obtain ⟨a, b⟩ := p
    obtain ⟨e1, h1⟩ := (cut_eq_some_iff _ _ _ _).1 h
    right
    cases h' : cut sep b with
    | none =>
      left
      exact ⟨a, b, e1, h1, (cut_eq_none_iff _ _).1 h', by simp [splitN, h, h']⟩
    | some q =>
      obtain ⟨c, d⟩ := q
      obtain ⟨e2, h2⟩ := (cut_eq_some_iff _ _ _ _).1 h'
      right
      exact ⟨a, c, d, by rw [e1, e2], h1, h2, by simp [splitN, h, h']⟩

theorem splitN_two_fields {sep : Char} {a b : Str} (ha : sep ∉ a) (hb : sep ∉ b) :
    splitN sep 3 (a ++ sep :: b) = [a, b] := by
  simp [splitN, cut_append ha, (cut_eq_none_iff _ _).2 hb]

theorem splitN_three_fields {sep : Char} {a b c : Str} (ha : sep ∉ a) (hb : sep ∉ b) :
    splitN sep 3 (a ++ sep :: (b ++ sep :: c)) = [a, b, c] := by
  simp [splitN, cut_append ha, cut_append hb]

/-! ### case -/

theorem lowerChar_of_not_upper {c : Char} (h : ¬ ('A' ≤ c ∧ c ≤ 'Z')) (h1 : c ≠ '\u0130') (h2 : c ≠ '\u212a') :
    lowerChar c = c := by
  unfold lowerChar; rw [if_neg h, if_neg h1, if_neg h2]

/-- A lower-case ASCII letter, digit or punctuation that is its own lower case and not an upper-case image. -/
def IsLowerish (d : Char) : Prop := 'a' ≤ d ∧ d ≤ 'z' ∨ d = '(' ∨ d = ')'

theorem char_le_iff (a b : Char) : a ≤ b ↔ a.toNat ≤ b.toNat := Iff.rfl

theorem char_toNat_ofNat {n : Nat} (h : n < 0xd800) : (Char.ofNat n).toNat = n := by
  unfold Char.ofNat
  have hv : n.isValidChar := Or.inl h
  rw [dif_pos hv]
  simp [Char.ofNatAux, Char.toNat, UInt32.toNat]

theorem char_ext_toNat {a b : Char} (h : a.toNat = b.toNat) : a = b := by
  apply Char.ext
  exact UInt32.toNat.inj h

theorem lowerChar_eq_iff {c d : Char} (hd : IsLowerish d) : lowerChar c = d ↔ CharVariant c d := by
  have hA : ('A' : Char).toNat = 65 := rfl
  have hZ : ('Z' : Char).toNat = 90 := rfl
  have ha : ('a' : Char).toNat = 97 := rfl
  have hz : ('z' : Char).toNat = 122 := rfl
  have hdn : ¬ ('A' ≤ d ∧ d ≤ 'Z') ∧ d.toNat ≤ 122 := by
    rcases hd with ⟨h1, h2⟩ | rfl | rfl
    · rw [char_le_iff] at h1 h2; simp only [char_le_iff]; omega
    · decide
    · decide
  unfold lowerChar CharVariant
  split
  · rename_i h
    have h' := h
    simp only [char_le_iff] at h'
    constructor
    · rintro rfl
      right; left
      refine ⟨h.1, h.2, ?_⟩
      rw [char_toNat_ofNat]; omega
    · rintro (rfl | ⟨_, _, e⟩ | ⟨rfl, _⟩ | ⟨rfl, _⟩)
      · exact absurd h hdn.1
      · apply char_ext_toNat; rw [char_toNat_ofNat, e]; omega
      · exact absurd h (by decide)
      · exact absurd h (by decide)
  · rename_i h
    split
    · rename_i h1; subst h1
      constructor
      · rintro rfl; right; right; left; exact ⟨rfl, rfl⟩
      · rintro (rfl | ⟨h1, h2, _⟩ | ⟨_, rfl⟩ | ⟨h1, _⟩)
        · exact absurd hdn.2 (by decide)
        · exact absurd ⟨h1, h2⟩ h
        · rfl
        · exact absurd h1 (by decide)
    · rename_i h1
      split
      · rename_i h2; subst h2
        constructor
        · rintro rfl; right; right; right; exact ⟨rfl, rfl⟩
        · rintro (rfl | ⟨h3, h2, _⟩ | ⟨h2, rfl⟩ | ⟨_, rfl⟩)
          · exact absurd hdn.2 (by decide)
          · exact absurd ⟨h3, h2⟩ h
          · exact absurd h2 h1
          · rfl
      · rename_i h2
        constructor
        · rintro rfl; left; rfl
        · rintro (rfl | ⟨h3, h2, _⟩ | ⟨h2, rfl⟩ | ⟨h3, rfl⟩)
          · rfl
          · exact absurd ⟨h3, h2⟩ h
          · exact absurd h2 h1
          · exact absurd h3 h2

theorem toLower_eq_iff {s lit : Str} (hl : ∀ d ∈ lit, IsLowerish d) :
    toLower s = lit ↔ SameIgnoringCase s lit := by
  induction s generalizing lit with
  | nil => cases lit <;> simp [toLower, SameIgnoringCase]
  | cons c s ih =>
    cases lit with
    | nil => simp [toLower, SameIgnoringCase]
    | cons d lit =>
      have := ih (lit := lit) (fun e he => hl e (by simp [he]))
      simp only [toLower, List.map_cons, List.cons.injEq, SameIgnoringCase] at this ⊢
      rw [this, lowerChar_eq_iff (hl d (by simp))]

theorem toLower_self {lit : Str} (hl : ∀ d ∈ lit, IsLowerish d) : toLower lit = lit := by
  rw [toLower_eq_iff hl]
  clear hl
  induction lit with
  | nil => trivial
  | cons d lit ih => exact ⟨Or.inl rfl, ih⟩

/-! ### numbers -/

theorem isDigit_iff (d : Char) : d.isDigit = true ↔ '0' ≤ d ∧ d ≤ '9' := by
  simp only [Char.isDigit, Bool.and_eq_true, decide_eq_true_eq]
  exact Iff.rfl

theorem ofDigitChars_eq_digitsValue (ds : Str) (init : Nat) :
    Nat.ofDigitChars 10 ds init = init * 10 ^ ds.length + digitsValue ds := by
  induction ds generalizing init with
  | nil => simp [digitsValue]
  | cons d ds ih =>
    rw [Nat.ofDigitChars_cons, ih]
    have : ('0' : Char).toNat = 48 := rfl
    simp only [digitsValue, List.length_cons, Nat.pow_succ, this]
    rw [Nat.add_mul, Nat.mul_comm 10 init, Nat.mul_assoc, Nat.mul_comm 10, Nat.add_assoc]

theorem parseUint_eq_some_iff (s : Str) (n : Nat) :
    parseUint s = some n ↔ s ≠ [] ∧ (∀ d ∈ s, '0' ≤ d ∧ d ≤ '9') ∧ n = digitsValue s := by
  unfold parseUint
  have h0 := ofDigitChars_eq_digitsValue s 0
  simp only [Nat.zero_mul, Nat.zero_add] at h0
  split
  · rename_i h; simp [h]
  · rename_i h
    split
    · rename_i h'
      rw [List.all_eq_true] at h'
      have h'' : ∀ d ∈ s, '0' ≤ d ∧ d ≤ '9' := fun d hd => (isDigit_iff d).1 (h' d hd)
      rw [h0]
      simp only [Option.some.injEq]
      exact ⟨fun e => ⟨h, h'', e.symm⟩, fun e => e.2.2.symm⟩
    · rename_i h'
      constructor
      · intro e; cases e
      · rintro ⟨_, h2, _⟩
        refine absurd ?_ h'
        rw [List.all_eq_true]
        exact fun d hd => (isDigit_iff d).2 (h2 d hd)

theorem decNat_ne_nil (n : Nat) : decNat n ≠ [] := Nat.toDigits_ne_nil

theorem decNat_digits (n : Nat) : ∀ d ∈ decNat n, '0' ≤ d ∧ d ≤ '9' := by
  intro d hd
  exact (isDigit_iff d).1 (Nat.isDigit_of_mem_toDigits (by decide) (by decide) hd)

theorem digitsValue_decNat (n : Nat) : digitsValue (decNat n) = n := by
  have h := ofDigitChars_eq_digitsValue (decNat n) 0
  rw [decNat, Nat.ofDigitChars_ten_toDigits] at h
  simpa [decNat] using h.symm

theorem decNat_inj {m n : Nat} (h : decNat m = decNat n) : m = n := by
  rw [← digitsValue_decNat m, h, digitsValue_decNat]

/-- What `ParseInt` returns, in terms of the number grammar. -/
theorem parseInt_eq_some_iff (s : Str) (i : Int64) : parseInt s = some i ↔ DenotesInt s i.toInt := by
  have hb := i.toInt_lt
  have hb' := i.le_toInt
  -- the three shapes of the text
  have key : ∀ (neg : Bool) (r : Str),
      parseIntTail neg r = some i ↔
      r ≠ [] ∧ (∀ d ∈ r, '0' ≤ d ∧ d ≤ '9') ∧
        i.toInt = if neg then -(digitsValue r : Int) else (digitsValue r : Int) := by
    intro neg r
    unfold parseIntTail
    cases hu : parseUint r with
    | none =>
      simp only [reduceCtorEq, false_iff]
      rintro ⟨h1, h2, _⟩
      have := (parseUint_eq_some_iff r (digitsValue r)).2 ⟨h1, h2, rfl⟩
      rw [hu] at this; cases this
    | some un =>
      obtain ⟨h1, h2, rfl⟩ := (parseUint_eq_some_iff r un).1 hu
      cases neg
      · simp only [Bool.not_false, Bool.true_and, decide_eq_true_eq, Bool.false_and, Bool.false_eq_true,
          if_false]
        split
        · constructor
          · intro h; cases h
          · rintro ⟨_, _, e⟩; omega
        · rename_i hlt
          simp only [Option.some.injEq]
          constructor
          · rintro rfl
            refine ⟨h1, h2, Int64.toInt_ofInt_of_le (by omega) (by omega)⟩
          · rintro ⟨_, _, e⟩; rw [← e, Int64.ofInt_toInt]
      · simp only [Bool.not_true, Bool.false_and, Bool.false_eq_true, Bool.true_and, decide_eq_true_eq,
          if_true, if_false]
        split
        · constructor
          · intro h; cases h
          · rintro ⟨_, _, e⟩; omega
        · rename_i hlt
          simp only [Option.some.injEq]
          constructor
          · rintro rfl
            refine ⟨h1, h2, Int64.toInt_ofInt_of_le (by omega) (by omega)⟩
          · rintro ⟨_, _, e⟩; rw [← e, Int64.ofInt_toInt]
  unfold parseInt
  split
  · -- '+'
    rename_i r
    rw [key]
    simp only [Bool.false_eq_true, if_false]
    constructor
    · rintro ⟨h1, h2, h3⟩; exact ⟨['+'], r, rfl, h1, h2, Or.inr (Or.inl ⟨rfl, h3⟩)⟩
    · rintro ⟨sign, ds, e, h1, h2, ⟨rfl, h3⟩ | ⟨rfl, h3⟩ | ⟨rfl, h3⟩⟩
      · simp only [List.nil_append] at e; subst e
        exact absurd (h2 '+' (by simp)) (by decide)
      · simp at e; subst e; exact ⟨h1, h2, h3⟩
      · simp at e
  · rename_i r
    rw [key]
    simp only [if_true]
    constructor
    · rintro ⟨h1, h2, h3⟩; exact ⟨['-'], r, rfl, h1, h2, Or.inr (Or.inr ⟨rfl, h3⟩)⟩
    · rintro ⟨sign, ds, e, h1, h2, ⟨rfl, h3⟩ | ⟨rfl, h3⟩ | ⟨rfl, h3⟩⟩
      · simp only [List.nil_append] at e; subst e
        exact absurd (h2 '-' (by simp)) (by decide)
      · simp at e
      · simp at e; subst e; exact ⟨h1, h2, h3⟩
  · rename_i n1 n2
    rw [key]
    simp only [Bool.false_eq_true, if_false]
    constructor
    · rintro ⟨h1, h2, h3⟩; exact ⟨[], _, rfl, h1, h2, Or.inl ⟨rfl, h3⟩⟩
    · rintro ⟨sign, ds, e, h1, h2, ⟨rfl, h3⟩ | ⟨rfl, h3⟩ | ⟨rfl, h3⟩⟩
      · simp at e; subst e; exact ⟨h1, h2, h3⟩
      · exact absurd e (n1 ds)
      · exact absurd e (n2 ds)

theorem parseInt_isSome_iff (s : Str) : (∃ i, parseInt s = some i) ↔ ReadsAsInt64 s := by
  constructor
  · rintro ⟨i, h⟩
    exact ⟨i.toInt, (parseInt_eq_some_iff s i).1 h, i.le_toInt, i.toInt_lt⟩
  · rintro ⟨n, h, h1, h2⟩
    refine ⟨Int64.ofInt n, (parseInt_eq_some_iff s _).2 ?_⟩
    rwa [Int64.toInt_ofInt_of_le h1 h2]

theorem parseInt_eq_none_iff (s : Str) : parseInt s = none ↔ ¬ ReadsAsInt64 s := by
  rw [← parseInt_isSome_iff]
  cases parseInt s <;> simp

theorem denotesInt_formatInt (i : Int64) : DenotesInt (formatInt i) i.toInt := by
  unfold formatInt
  split
  · exact ⟨['-'], decNat i.toInt.natAbs, rfl, decNat_ne_nil _, decNat_digits _,
      Or.inr (Or.inr ⟨rfl, by rw [digitsValue_decNat]; omega⟩)⟩
  · exact ⟨[], decNat i.toInt.natAbs, rfl, decNat_ne_nil _, decNat_digits _,
      Or.inl ⟨rfl, by rw [digitsValue_decNat]; omega⟩⟩

theorem parseInt_formatInt (i : Int64) : parseInt (formatInt i) = some i :=
  (parseInt_eq_some_iff _ _).2 (denotesInt_formatInt i)

theorem formatInt_inj {i j : Int64} (h : formatInt i = formatInt j) : i = j := by
  have := parseInt_formatInt i
  rw [h, parseInt_formatInt j] at this
  exact (Option.some.inj this).symm

theorem decNat_head_zero (n : Nat) (r : Str) (h : decNat n = '0' :: r) : n = 0 := by
  unfold decNat at h
  induction n using Nat.strongRecOn generalizing r with
  | _ n ih =>
    by_cases hn : n < 10
    · rw [Nat.toDigits_of_lt_base hn] at h
      have h1 := (List.cons.inj h).1
      have : ∀ k : Fin 10, Nat.digitChar k = '0' → k.val = 0 := by decide
      exact this ⟨n, hn⟩ h1
    · rw [Nat.toDigits_of_base_le (by omega) (by omega)] at h
      cases hq : Nat.toDigits 10 (n / 10) with
      | nil => exact absurd hq Nat.toDigits_ne_nil
      | cons c q =>
        rw [hq] at h
        have hc : c = '0' := (List.cons.inj h).1
        subst hc
        have := ih (n / 10) (by omega) q hq
        omega

theorem decNat_head_digit (n : Nat) (c : Char) (h : (decNat n).head? = some c) : '0' ≤ c ∧ c ≤ '9' :=
  decNat_digits n c (List.mem_of_head? h)

theorem canonicalInt_formatInt (i : Int64) : CanonicalInt (formatInt i) i.toInt := by
  refine ⟨denotesInt_formatInt i, ?_⟩
  unfold formatInt
  split
  · rename_i hlt
    refine ⟨by simp, by simp [hlt], by simp, fun r hr => ?_⟩
    have := decNat_head_zero _ _ (List.cons.inj hr).2
    omega
  · rename_i hlt
    refine ⟨fun h => absurd (decNat_head_digit _ _ h) (by decide), ⟨fun h => absurd (decNat_head_digit _ _ h) (by decide),
      fun h => absurd h hlt⟩, fun r hr => ?_, fun r hr => ?_⟩
    · have h0 := decNat_head_zero _ _ hr
      rw [h0] at hr
      exact (List.cons.inj (hr.symm.trans (Nat.toDigits_zero 10))).2
    · have : (decNat i.toInt.natAbs).head? = some '-' := by rw [hr]; rfl
      exact absurd (decNat_head_digit _ _ this) (by decide)

theorem formatInt_ne_nil (i : Int64) : formatInt i ≠ [] := by
  unfold formatInt; split
  · simp
  · exact decNat_ne_nil _

theorem formatInt_chars (i : Int64) : ∀ d ∈ formatInt i, d = '-' ∨ ('0' ≤ d ∧ d ≤ '9') := by
  intro d hd
  unfold formatInt at hd
  split at hd
  · rcases List.mem_cons.1 hd with h | h
    · exact Or.inl h
    · exact Or.inr (decNat_digits _ _ h)
  · exact Or.inr (decNat_digits _ _ hd)

theorem not_isSpace_of_ascii_graph {c : Char} (h1 : 33 ≤ c.toNat) (h2 : c.toNat ≤ 126) : white c = false := by
  simp only [white, decide_eq_false_iff_not, List.mem_cons, List.not_mem_nil, or_false]
  omega

theorem noOuterSpace_of_forall {s : Str} (h : ∀ c ∈ s, white c = false) : NoOuterSpace s :=
  ⟨fun c r e => h c (by simp [e]), fun r c e => h c (by simp [e])⟩

theorem formatInt_noSpace (i : Int64) : ∀ c ∈ formatInt i, white c = false := by
  intro c hc
  rcases formatInt_chars i c hc with rfl | ⟨h1, h2⟩
  · decide
  · rw [char_le_iff] at h1 h2
    have : ('0' : Char).toNat = 48 := rfl
    have : ('9' : Char).toNat = 57 := rfl
    exact not_isSpace_of_ascii_graph (by omega) (by omega)

end Rtcg
