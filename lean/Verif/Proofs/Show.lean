import Verif.Model.Show
import Verif.Proofs.Text

namespace Rtcg.Show
open Rtcg

/-! ### reading off a leading part -/

/-- What comes next is nothing, or begins with a character that is not `p`. -/
def Stops (p : Char → Bool) (r : Str) : Prop := ∀ c t, r = c :: t → p c = false

theorem span_inj {p : Char → Bool} : ∀ {a b r s : Str}, (∀ c ∈ a, p c = true) → (∀ c ∈ b, p c = true) → Stops p r → Stops p s →
    a ++ r = b ++ s → a = b ∧ r = s
  | [], [], _, _, _, _, _, _, h => ⟨rfl, h⟩
  | [], c :: b, r, s, _, hb, hr, _, h => by
      have := hr c (b ++ s) h
      rw [hb c (by simp)] at this; cases this
  | c :: a, [], r, s, ha, _, _, hs, h => by
      have := hs c (a ++ r) h.symm
      rw [ha c (by simp)] at this; cases this
  | c :: a, d :: b, r, s, ha, hb, hr, hs, h => by
      simp only [List.cons_append, List.cons.injEq] at h
      obtain ⟨rfl, h⟩ := h
      obtain ⟨h1, h2⟩ := span_inj (fun c hc => ha c (by simp [hc])) (fun c hc => hb c (by simp [hc])) hr hs h
      exact ⟨by rw [h1], h2⟩

/-! ### quoted texts -/

theorem hexDigit_inj {m n : Nat} (hm : m < 16) (hn : n < 16) (h : hexDigit m = hexDigit n) : m = n := by
  have key : ∀ a b : Fin 16, hexDigit a.1 = hexDigit b.1 → a = b := by decide +kernel
  exact congrArg Fin.val (key ⟨m, hm⟩ ⟨n, hn⟩ h)

theorem hexDigits_length (k n : Nat) : (hexDigits k n).length = k := by
  induction k generalizing n with
  | zero => rfl
  | succ k ih => simp [hexDigits, ih]

theorem hexDigits_inj {k : Nat} : ∀ {m n : Nat}, m < 16 ^ k → n < 16 ^ k → hexDigits k m = hexDigits k n → m = n := by
  induction k with
  | zero => intro m n hm hn _; simp at hm hn; omega
  | succ k ih =>
    intro m n hm hn h
    simp only [hexDigits] at h
    obtain ⟨h1, h2⟩ := List.append_inj h (by rw [hexDigits_length, hexDigits_length])
    have hm' : m / 16 < 16 ^ k := by rw [Nat.div_lt_iff_lt_mul (by decide)]; rw [Nat.pow_succ] at hm; omega
    have hn' : n / 16 < 16 ^ k := by rw [Nat.div_lt_iff_lt_mul (by decide)]; rw [Nat.pow_succ] at hn; omega
    have e1 := ih hm' hn' h1
    have e2 := hexDigit_inj (Nat.mod_lt _ (by decide)) (Nat.mod_lt _ (by decide)) (by simpa using h2)
    omega

theorem char_lt (c : Char) : c.toNat < 0x110000 := by
  have := c.valid
  unfold Char.toNat
  have h : c.val.toNat.isValidChar := this
  unfold Nat.isValidChar at h; omega

theorem char_inj {c d : Char} (h : c.toNat = d.toNat) : c = d := Char.toNat_inj.1 h

/-- The character as it was, or a backslash and an escape. -/
theorem quoteChar_cases (p : Char → Bool) (c : Char) :
    (quoteChar p c = [c] ∧ c ≠ '"' ∧ c ≠ '\\') ∨
    (∃ t, quoteChar p c = ['\\', t] ∧
      (t, c) ∈ [('"', '"'), ('\\', '\\'), ('a', '\x07'), ('b', '\x08'), ('f', '\x0c'), ('n', '\n'), ('r', '\r'), ('t', '\t'), ('v', '\x0b')]) ∨
    (∃ t k, quoteChar p c = '\\' :: t :: hexDigits k c.toNat ∧ (t, k) ∈ [('x', 2), ('u', 4), ('U', 8)] ∧ c.toNat < 16 ^ k) := by
  unfold quoteChar
  by_cases h : c = '"' ∨ c = '\\'
  · rw [if_pos h]
    rcases h with rfl | rfl <;> exact .inr (.inl ⟨_, rfl, by decide⟩)
  · rw [if_neg h]
    have h : c ≠ '"' ∧ c ≠ '\\' := ⟨fun e => h (.inl e), fun e => h (.inr e)⟩
    cases hp : p c with
    | true => exact .inl ⟨by simp, h⟩
    | false =>
      simp only [Bool.false_eq_true, if_false]
      refine .inr ?_
      by_cases h1 : c = '\x07'
      · subst h1; exact .inl ⟨_, rfl, by decide⟩
      rw [if_neg h1]
      by_cases h2 : c = '\x08'
      · subst h2; exact .inl ⟨_, rfl, by decide⟩
      rw [if_neg h2]
      by_cases h3 : c = '\x0c'
      · subst h3; exact .inl ⟨_, rfl, by decide⟩
      rw [if_neg h3]
      by_cases h4 : c = '\n'
      · subst h4; exact .inl ⟨_, rfl, by decide⟩
      rw [if_neg h4]
      by_cases h5 : c = '\r'
      · subst h5; exact .inl ⟨_, rfl, by decide⟩
      rw [if_neg h5]
      by_cases h6 : c = '\t'
      · subst h6; exact .inl ⟨_, rfl, by decide⟩
      rw [if_neg h6]
      by_cases h7 : c = '\x0b'
      · subst h7; exact .inl ⟨_, rfl, by decide⟩
      rw [if_neg h7]
      by_cases h8 : c < ' ' ∨ c = '\x7f'
      · rw [if_pos h8]
        refine .inr ⟨_, _, rfl, by decide, ?_⟩
        rcases h8 with h8 | rfl
        · have : c.toNat < 32 := h8
          omega
        · decide
      rw [if_neg h8]
      by_cases h9 : c.toNat < 0x10000
      · rw [if_pos h9]; exact .inr ⟨_, _, rfl, by decide, h9⟩
      · rw [if_neg h9]; exact .inr ⟨_, _, rfl, by decide, Nat.lt_trans (char_lt c) (by decide)⟩

theorem quoteChar_inj (p : Char → Bool) {c d : Char} {r s : Str} (h : quoteChar p c ++ r = quoteChar p d ++ s) : c = d ∧ r = s := by
  rcases quoteChar_cases p c with ⟨hc, hc1, hc2⟩ | ⟨t, hc, hct⟩ | ⟨t, k, hc, hct, hck⟩ <;>
  rcases quoteChar_cases p d with ⟨hd, hd1, hd2⟩ | ⟨u, hd, hdu⟩ | ⟨u, l, hd, hdu, hdl⟩ <;> rw [hc, hd] at h
  · simpa using h
  · simp at h; exact absurd h.1 hc2
  · simp at h; exact absurd h.1 hc2
  · simp at h; exact absurd h.1.symm hd2
  · simp at h
    obtain ⟨rfl, rfl⟩ := h
    refine ⟨?_, rfl⟩
    simp only [List.mem_cons, Prod.mk.injEq, List.not_mem_nil, or_false] at hct hdu
    rcases hct with h | h | h | h | h | h | h | h | h <;> obtain ⟨rfl, rfl⟩ := h <;>
      rcases hdu with h | h | h | h | h | h | h | h | h <;> obtain ⟨h, rfl⟩ := h <;> first | rfl | (exact absurd h (by decide))
  · simp at h
    obtain ⟨rfl, -⟩ := h
    simp only [List.mem_cons, Prod.mk.injEq, List.not_mem_nil, or_false] at hct hdu
    exfalso
    rcases hdu with ⟨h, -⟩ | ⟨h, -⟩ | ⟨h, -⟩ <;> subst h <;> revert hct <;> simp
  · simp at h; exact absurd h.1.symm hd2
  · simp at h
    obtain ⟨rfl, -⟩ := h
    simp only [List.mem_cons, Prod.mk.injEq, List.not_mem_nil, or_false] at hct hdu
    exfalso
    rcases hct with ⟨h, -⟩ | ⟨h, -⟩ | ⟨h, -⟩ <;> subst h <;> revert hdu <;> simp
  · simp only [List.cons_append, List.cons.injEq, true_and] at h
    obtain ⟨rfl, h⟩ := h
    have hkl : k = l := by
      simp only [List.mem_cons, Prod.mk.injEq, List.not_mem_nil, or_false] at hct hdu
      rcases hct with ⟨h, h'⟩ | ⟨h, h'⟩ | ⟨h, h'⟩ <;> subst h <;> subst h' <;> revert hdu <;> simp <;> intro e <;> exact e.symm
    subst hkl
    obtain ⟨h1, h2⟩ := List.append_inj h (by rw [hexDigits_length, hexDigits_length])
    exact ⟨char_inj (hexDigits_inj hck hdl h1), h2⟩

theorem quoteChar_head (p : Char → Bool) (c : Char) (r s : Str) : quoteChar p c ++ r ≠ '"' :: s := by
  intro h
  rcases quoteChar_cases p c with ⟨hc, hc1, hc2⟩ | ⟨t, hc, -⟩ | ⟨t, k, hc, -⟩ <;> rw [hc] at h <;> simp at h
  exact hc1 h.1

theorem body_inj (p : Char → Bool) : ∀ {a b r s : Str},
    a.flatMap (quoteChar p) ++ '"' :: r = b.flatMap (quoteChar p) ++ '"' :: s → a = b ∧ r = s
  | [], [], _, _, h => by simpa using h
  | [], c :: b, r, s, h => by
      simp only [List.flatMap_nil, List.nil_append, List.flatMap_cons, List.append_assoc] at h
      exact absurd h.symm (quoteChar_head p c _ _)
  | c :: a, [], r, s, h => by
      simp only [List.flatMap_nil, List.nil_append, List.flatMap_cons, List.append_assoc] at h
      exact absurd h (quoteChar_head p c _ _)
  | c :: a, d :: b, r, s, h => by
      simp only [List.flatMap_cons, List.append_assoc] at h
      obtain ⟨rfl, h'⟩ := quoteChar_inj p h
      obtain ⟨h1, h2⟩ := body_inj p h'
      exact ⟨by rw [h1], h2⟩

theorem goQuote_inj (p : Char → Bool) {a b r s : Str} (h : goQuote p a ++ r = goQuote p b ++ s) : a = b ∧ r = s := by
  simp only [goQuote, List.cons_append, List.append_assoc, List.nil_append, List.cons.injEq, true_and] at h
  exact body_inj p h

/-! ### values, channels, events -/

/-- The end, or a comma, or the end of the list. -/
def Rest (r : Str) : Prop := r = [] ∨ (∃ t, r = ',' :: t) ∨ ∃ t, r = '>' :: t

theorem formatInt_chars (i : Int64) : ∀ c ∈ formatInt i, (c == '-' || c.isDigit) = true := by
  have hd : ∀ n, ∀ c ∈ decNat n, (c == '-' || c.isDigit) = true := by
    intro n c hc
    obtain ⟨h1, h2⟩ := decNat_digits n c hc
    have : c.isDigit = true := by unfold Char.isDigit; simp only [Bool.and_eq_true, decide_eq_true_eq]; exact ⟨h1, h2⟩
    simp [this]
  unfold formatInt
  split
  · intro c hc
    simp only [List.mem_cons] at hc
    rcases hc with rfl | hc
    · rfl
    · exact hd _ c hc
  · exact hd _

theorem rest_stops {p : Char → Bool} (h1 : p ',' = false) (h2 : p '>' = false) {r : Str} (h : Rest r) : Stops p r := by
  intro c t e
  rcases h with rfl | ⟨u, rfl⟩ | ⟨u, rfl⟩
  · cases e
  · injection e with e; subst e; exact h1
  · injection e with e; subst e; exact h2

theorem value_inj (p : Char → Bool) {v w : Value} {r s : Str} (hv : v.isEmpty = false) (hw : w.isEmpty = false) (hr : Rest r) (hs : Rest s)
    (h : v.string p ++ r = w.string p ++ s) : v = w ∧ r = s := by
  cases v with
  | none => cases hv
  | int i =>
    cases w with
    | none => cases hw
    | int j =>
      simp only [Value.string, List.append_assoc] at h
      have h := List.append_cancel_left h
      obtain ⟨h1, h2⟩ := span_inj (p := fun c => c == '-' || c.isDigit) (formatInt_chars i) (formatInt_chars j) (rest_stops (by decide) (by decide) hr)
        (rest_stops (by decide) (by decide) hs) h
      exact ⟨by rw [formatInt_inj h1], h2⟩
    | enum t => simp [Value.string] at h
  | enum t =>
    cases w with
    | none => cases hw
    | int j => simp [Value.string] at h
    | enum u =>
      simp only [Value.string, List.append_assoc] at h
      obtain ⟨rfl, h2⟩ := goQuote_inj p (List.append_cancel_left h)
      exact ⟨rfl, h2⟩

theorem kind_chars (k : Kind) : ∀ c ∈ k.string, (c.isAlphanum || c == '(' || c == ')') = true := by
  obtain ⟨x⟩ := k
  have h : ∀ n : Fin 256, ((Kind.string ⟨UInt8.ofNat n.1⟩).all fun c => c.isAlphanum || c == '(' || c == ')') = true := by decide +kernel
  have := h ⟨x.toNat, x.toNat_lt⟩
  simp only [UInt8.ofNat_toNat] at this
  exact fun c hc => List.all_eq_true.1 this c hc

theorem kind_key : ∀ n : Fin 256,
    (List.range 256).find? (fun m => decide (Kind.string ⟨UInt8.ofNat m⟩ = Kind.string ⟨UInt8.ofNat n.1⟩)) = some n.1 := by
  decide +kernel

theorem kind_inj {k l : Kind} (h : k.string = l.string) : k = l := by
  obtain ⟨x⟩ := k
  obtain ⟨y⟩ := l
  have h1 := kind_key ⟨x.toNat, x.toNat_lt⟩
  have h2 := kind_key ⟨y.toNat, y.toNat_lt⟩
  simp only [UInt8.ofNat_toNat] at h1 h2
  rw [h, h2] at h1
  have : y.toNat = x.toNat := by simpa using h1
  rw [UInt8.toNat_inj.1 this]

theorem outcome_key : ∀ n : Fin 256,
    (List.range 256).find? (fun m => decide (Outcome.string ⟨UInt8.ofNat m⟩ = Outcome.string ⟨UInt8.ofNat n.1⟩)) = some n.1 := by
  decide +kernel

theorem outcome_inj {k l : Outcome} (h : k.string = l.string) : k = l := by
  obtain ⟨x⟩ := k
  obtain ⟨y⟩ := l
  have h1 := outcome_key ⟨x.toNat, x.toNat_lt⟩
  have h2 := outcome_key ⟨y.toNat, y.toNat_lt⟩
  simp only [UInt8.ofNat_toNat] at h1 h2
  rw [h, h2] at h1
  have : y.toNat = x.toNat := by simpa using h1
  rw [UInt8.toNat_inj.1 this]

theorem outcome_chars (k : Outcome) : ∀ c ∈ k.string, (c.isAlphanum || c == '(' || c == ')') = true := by
  obtain ⟨x⟩ := k
  have h : ∀ n : Fin 256, ((Outcome.string ⟨UInt8.ofNat n.1⟩).all fun c => c.isAlphanum || c == '(' || c == ')') = true := by decide +kernel
  have := h ⟨x.toNat, x.toNat_lt⟩
  simp only [UInt8.ofNat_toNat] at this
  exact fun c hc => List.all_eq_true.1 this c hc

/-- A name that can be told from what follows it. -/
def Named (e : Event) : Prop := e.channel.name ≠ [] ∧ '.' ∉ e.channel.name

/-- What follows the kind of an event's channel. -/
def tail (p : Char → Bool) (e : Event) : Str := if e.value.isEmpty then [] else '.' :: e.value.string p

theorem event_string (p : Char → Bool) {e : Event} (h : Named e) :
    e.string p = e.channel.name ++ '.' :: (e.channel.kind.string ++ tail p e) := by
  have : e.channel.isEmpty = false := by simp [Channel.isEmpty, h.1]
  unfold Event.string Channel.string tail
  rw [this]
  cases e.value.isEmpty <;> simp

theorem event_inj (p : Char → Bool) {e f : Event} {r s : Str} (he : Named e) (hf : Named f) (hr : Rest r) (hs : Rest s)
    (h : e.string p ++ r = f.string p ++ s) : e = f ∧ r = s := by
  rw [event_string p he, event_string p hf, List.append_assoc, List.append_assoc, List.cons_append, List.cons_append,
    List.append_assoc, List.append_assoc] at h
  obtain ⟨hn, h⟩ := span_inj (p := fun c => c != '.') (fun c hc => by simp; rintro rfl; exact he.2 hc)
    (fun c hc => by simp; rintro rfl; exact hf.2 hc) (fun c t e => by injection e with e; subst e; rfl)
    (fun c t e => by injection e with e; subst e; rfl) h
  simp only [List.cons.injEq, true_and] at h
  have stops : ∀ (e : Event) (r : Str), Rest r → Stops (fun c => c.isAlphanum || c == '(' || c == ')') (tail p e ++ r) := by
    intro e r hr
    unfold tail
    cases e.value.isEmpty with
    | true => simpa using rest_stops (by decide) (by decide) hr
    | false => intro c t e; simp at e; obtain ⟨rfl, -⟩ := e; rfl
  obtain ⟨hk', h'⟩ := span_inj (kind_chars _) (kind_chars _) (stops e r hr) (stops f s hs) h
  have hk := kind_inj hk'
  clear hk' h
  have h := h'
  clear h'
  have dot : ∀ {v : Value} {r s : Str}, Rest r → r ≠ ('.' :: v.string p) ++ s := by
    intro v r s hr e
    rcases hr with rfl | ⟨t, rfl⟩ | ⟨t, rfl⟩ <;> cases e
  obtain ⟨⟨n, k⟩, v⟩ := e
  obtain ⟨⟨m, l⟩, w⟩ := f
  simp only at hn hk
  subst hn; subst hk
  unfold tail at h
  simp only at h
  cases hv : v.isEmpty with
  | true =>
    have ev : v = .none := by cases v <;> first | rfl | cases hv
    cases hw : w.isEmpty with
    | true =>
      have ew : w = .none := by cases w <;> first | rfl | cases hw
      subst ev; subst ew
      rw [hv] at h; simp at h; exact ⟨rfl, h⟩
    | false => rw [hv, hw] at h; simp only [if_true, Bool.false_eq_true, if_false, List.nil_append] at h; exact absurd h (dot hr)
  | false =>
    cases hw : w.isEmpty with
    | true => rw [hv, hw] at h; simp only [if_true, Bool.false_eq_true, if_false, List.nil_append] at h; exact absurd h.symm (dot hs)
    | false =>
      rw [hv, hw] at h
      simp only [Bool.false_eq_true, if_false, List.cons_append, List.cons.injEq, true_and] at h
      obtain ⟨rfl, h'⟩ := value_inj p hv hw hr hs h
      exact ⟨rfl, h'⟩

/-! ### traces -/

/-- The events of a trace that has one, and what follows. -/
theorem list_inj (p : Char → Bool) : ∀ {t u : Trace} {e f : Event} {r s : Str}, (∀ e' ∈ e :: t, Named e') → (∀ f' ∈ f :: u, Named f') →
    commaJoin ((e :: t).map (Event.string p)) ++ '>' :: r = commaJoin ((f :: u).map (Event.string p)) ++ '>' :: s →
    e :: t = f :: u ∧ r = s
  | [], [], e, f, r, s, he, hf, h => by
      simp only [List.map_cons, List.map_nil, commaJoin] at h
      obtain ⟨rfl, h⟩ := event_inj p (he e (by simp)) (hf f (by simp)) (.inr (.inr ⟨_, rfl⟩)) (.inr (.inr ⟨_, rfl⟩)) h
      exact ⟨rfl, by simpa using h⟩
  | [], f2 :: u, e, f, r, s, he, hf, h => by
      simp only [List.map_cons, List.map_nil, commaJoin, List.append_assoc, List.cons_append] at h
      obtain ⟨-, h⟩ := event_inj p (he e (by simp)) (hf f (by simp)) (.inr (.inr ⟨_, rfl⟩)) (.inr (.inl ⟨_, rfl⟩)) h
      simp at h
  | e2 :: t, [], e, f, r, s, he, hf, h => by
      simp only [List.map_cons, List.map_nil, commaJoin, List.append_assoc, List.cons_append] at h
      obtain ⟨-, h⟩ := event_inj p (he e (by simp)) (hf f (by simp)) (.inr (.inl ⟨_, rfl⟩)) (.inr (.inr ⟨_, rfl⟩)) h
      simp at h
  | e2 :: t, f2 :: u, e, f, r, s, he, hf, h => by
      simp only [List.map_cons, commaJoin, List.append_assoc, List.cons_append] at h
      obtain ⟨rfl, h'⟩ := event_inj p (he e (by simp)) (hf f (by simp)) (.inr (.inl ⟨_, rfl⟩)) (.inr (.inl ⟨_, rfl⟩)) h
      have h := (List.cons.inj (List.cons.inj h').2).2
      obtain ⟨h1, h2⟩ := list_inj p (t := t) (u := u) (e := e2) (f := f2) (fun e' h' => he e' (List.mem_cons_of_mem _ h'))
        (fun f' h' => hf f' (List.mem_cons_of_mem _ h')) h
      exact ⟨by rw [h1], h2⟩

theorem commaJoin_head (a : Str) (l : List Str) : ∃ r, commaJoin (a :: l) = a ++ r ∧ (r = [] ∨ ∃ t, r = ',' :: t) := by
  cases l with
  | nil => exact ⟨[], by simp [commaJoin], .inl rfl⟩
  | cons b l => exact ⟨_, rfl, .inr ⟨_, rfl⟩⟩

theorem trace_inj (p : Char → Bool) {t u : Trace} (ht : ∀ e ∈ t, Named e) (hu : ∀ e ∈ u, Named e) (h : t.string p = u.string p) : t = u := by
  unfold Trace.string at h
  simp only [List.cons_append, List.cons.injEq, true_and] at h
  have no : ∀ (e : Event) (t : Trace), Named e → [] ++ ['>'] ≠ commaJoin ((e :: t).map (Event.string p)) ++ ['>'] := by
    intro e t he h
    have := congrArg List.length h
    obtain ⟨r, hr, -⟩ := commaJoin_head (e.string p) (t.map (Event.string p))
    rw [List.map_cons, hr, event_string p he] at this
    simp at this
    omega
  cases t with
  | nil =>
    cases u with
    | nil => rfl
    | cons f u => exact absurd h (no f u (hu f (by simp)))
  | cons e t =>
    cases u with
    | nil => exact absurd h.symm (no e t (ht e (by simp)))
    | cons f u => exact (list_inj p ht hu h).1

/-- The prefix and the forbidden event. -/
theorem forbid_inj (p : Char → Bool) {t u : Trace} {e f : Event} (ht : ∀ e ∈ t, Named e) (hu : ∀ e ∈ u, Named e) (he : Named e) (hf : Named f)
    (h : t.string p ++ '!' :: e.string p = u.string p ++ '!' :: f.string p) : t = u ∧ e = f := by
  unfold Trace.string at h
  simp only [List.cons_append, List.cons.injEq, true_and, List.append_assoc, List.nil_append] at h
  -- an empty prefix and a name that begins with `>!`
  have no : ∀ (e : Event) (f2 : Event) (u : Trace) (s : Str), Named e → Named f2 →
      '>' :: '!' :: e.string p ≠ commaJoin ((f2 :: u).map (Event.string p)) ++ '>' :: s := by
    intro e f2 u s he hf2 h
    obtain ⟨r, hr, hr'⟩ := commaJoin_head (f2.string p) (u.map (Event.string p))
    have hn : Named ⟨⟨'>' :: '!' :: e.channel.name, e.channel.kind⟩, e.value⟩ := ⟨by simp, by simp; exact he.2⟩
    have hs : '>' :: '!' :: e.string p = Event.string p ⟨⟨'>' :: '!' :: e.channel.name, e.channel.kind⟩, e.value⟩ := by
      rw [event_string p he, event_string p hn]; rfl
    rw [List.map_cons, hr, List.append_assoc, hs, ← List.append_nil (Event.string p _)] at h
    obtain ⟨-, h⟩ := event_inj p hn hf2 (.inl rfl) (by
      rcases hr' with rfl | ⟨t, rfl⟩
      · exact .inr (.inr ⟨_, rfl⟩)
      · exact .inr (.inl ⟨_, rfl⟩)) h
    rcases hr' with rfl | ⟨t, rfl⟩ <;> simp at h
  cases t with
  | nil =>
    cases u with
    | nil =>
      simp only [List.map_nil, commaJoin, List.nil_append, List.cons.injEq, true_and] at h
      rw [← List.append_nil (e.string p), ← List.append_nil (f.string p)] at h
      exact ⟨rfl, (event_inj p he hf (.inl rfl) (.inl rfl) h).1⟩
    | cons f2 u => exact absurd h (no e f2 u _ he (hu f2 (by simp)))
  | cons e2 t =>
    cases u with
    | nil => exact absurd h.symm (no f e2 t _ hf (ht e2 (by simp)))
    | cons f2 u =>
      obtain ⟨h1, h2⟩ := list_inj p ht hu h
      refine ⟨h1, ?_⟩
      simp only [List.cons.injEq, true_and] at h2
      rw [← List.append_nil (e.string p), ← List.append_nil (f.string p)] at h2
      exact (event_inj p he hf (.inl rfl) (.inl rfl) h2).1

theorem forbidden_inj (p : Char → Bool) {t u : Forbidden} (ht : ∀ e ∈ t.pre ++ [t.forbid], Named e) (hu : ∀ e ∈ u.pre ++ [u.forbid], Named e)
    (nt : ':' ∉ t.name ∧ t.name.head? ≠ some '<') (nu : ':' ∉ u.name ∧ u.name.head? ≠ some '<') (h : t.string p = u.string p) : t = u := by
  have ht1 : ∀ e ∈ t.pre, Named e := fun e he => ht e (List.mem_append_left _ he)
  have ht2 : Named t.forbid := ht _ (by simp)
  have hu1 : ∀ e ∈ u.pre, Named e := fun e he => hu e (List.mem_append_left _ he)
  have hu2 : Named u.forbid := hu _ (by simp)
  obtain ⟨a, t, e⟩ := t
  obtain ⟨b, u, f⟩ := u
  simp only at *
  unfold Forbidden.string at h
  simp only at h
  have lt : ∀ (t : Trace) (r : Str), ∃ s, t.string p ++ r = '<' :: s := fun t r => ⟨_, rfl⟩
  have no : ∀ (b : Str) (t : Trace) (r s : Str), b ≠ [] → b.head? ≠ some '<' → t.string p ++ r ≠ b ++ s := by
    intro b t r s hb hh h
    obtain ⟨q, hq⟩ := lt t r
    cases b with
    | nil => exact hb rfl
    | cons c b => rw [hq] at h; simp at h; exact hh (by rw [← h.1]; rfl)
  have main : t.string p ++ '!' :: e.string p = u.string p ++ '!' :: f.string p → (⟨a, t, e⟩ : Forbidden) = ⟨a, u, f⟩ := by
    intro h
    obtain ⟨rfl, rfl⟩ := forbid_inj p ht1 hu1 ht2 hu2 h
    rfl
  by_cases ha : a = []
  · by_cases hb : b = []
    · subst ha; subst hb
      simp only [if_true, List.nil_append] at h
      exact main h
    · rw [if_pos ha, if_neg hb, List.nil_append, List.append_assoc, List.append_assoc] at h
      exact absurd h (no b t _ _ hb nu.2)
  · by_cases hb : b = []
    · rw [if_neg ha, if_pos hb, List.nil_append, List.append_assoc, List.append_assoc] at h
      exact absurd h.symm (no a u _ _ ha nt.2)
    · rw [if_neg ha, if_neg hb] at h
      simp only [List.append_assoc, List.cons_append, List.nil_append] at h
      obtain ⟨hab, h'⟩ := span_inj (p := fun c => c != ':') (fun c hc => by simp; rintro rfl; exact nt.1 hc)
        (fun c hc => by simp; rintro rfl; exact nu.1 hc) (fun c t e => by injection e with e; subst e; rfl)
        (fun c t e => by injection e with e; subst e; rfl) h
      subst hab
      exact main (List.cons.inj h').2

/-! ### verdicts -/

/-- The items of a verdict's description. -/
theorem item_inj {a b : Str} {o q : Outcome} {r s : Str} (ha : ':' ∉ a) (hb : ':' ∉ b) (hr : Rest r) (hs : Rest s)
    (h : (a ++ ':' :: ' ' :: o.string) ++ r = (b ++ ':' :: ' ' :: q.string) ++ s) : (a = b ∧ o = q) ∧ r = s := by
  simp only [List.append_assoc, List.cons_append] at h
  obtain ⟨hab, h'⟩ := span_inj (p := fun c => c != ':') (fun c hc => by simp; rintro rfl; exact ha hc)
    (fun c hc => by simp; rintro rfl; exact hb hc) (fun c t e => by injection e with e; subst e; rfl)
    (fun c t e => by injection e with e; subst e; rfl) h
  obtain ⟨ho, h''⟩ := span_inj (outcome_chars o) (outcome_chars q) (rest_stops (by decide) (by decide) hr)
    (rest_stops (by decide) (by decide) hs) (List.cons.inj (List.cons.inj h').2).2
  exact ⟨⟨hab, outcome_inj ho⟩, h''⟩

theorem pairs_inj : ∀ {l m : List (Str × Outcome)}, (∀ x ∈ l, ':' ∉ x.1) → (∀ x ∈ m, ':' ∉ x.1) →
    commaJoin (l.map fun x => x.1 ++ ':' :: ' ' :: x.2.string) = commaJoin (m.map fun x => x.1 ++ ':' :: ' ' :: x.2.string) → l = m
  | [], [], _, _, _ => rfl
  | [], y :: m, _, _, h => by
      obtain ⟨r, hr, -⟩ := commaJoin_head (y.1 ++ ':' :: ' ' :: y.2.string) (m.map fun x => x.1 ++ ':' :: ' ' :: x.2.string)
      rw [List.map_cons, hr] at h
      simp [commaJoin] at h
  | x :: l, [], _, _, h => by
      obtain ⟨r, hr, -⟩ := commaJoin_head (x.1 ++ ':' :: ' ' :: x.2.string) (l.map fun x => x.1 ++ ':' :: ' ' :: x.2.string)
      rw [List.map_cons, hr] at h
      simp [commaJoin] at h
  | [x], [y], hl, hm, h => by
      simp only [List.map_cons, List.map_nil, commaJoin] at h
      have h' : (x.1 ++ ':' :: ' ' :: x.2.string) ++ [] = (y.1 ++ ':' :: ' ' :: y.2.string) ++ [] := by rw [h]
      obtain ⟨⟨h1, h2⟩, -⟩ := item_inj (hl x (by simp)) (hm y (by simp)) (.inl rfl) (.inl rfl) h'
      rw [Prod.ext h1 h2]
  | [x], y :: y2 :: m, hl, hm, h => by
      simp only [List.map_cons, List.map_nil, commaJoin] at h
      rw [← List.append_nil (x.1 ++ ':' :: ' ' :: x.2.string)] at h
      obtain ⟨-, h'⟩ := item_inj (hl x (by simp)) (hm y (by simp)) (.inl rfl) (.inr (.inl ⟨_, rfl⟩)) h
      cases h'
  | x :: x2 :: l, [y], hl, hm, h => by
      simp only [List.map_cons, List.map_nil, commaJoin] at h
      rw [← List.append_nil (y.1 ++ ':' :: ' ' :: y.2.string)] at h
      obtain ⟨-, h'⟩ := item_inj (hl x (by simp)) (hm y (by simp)) (.inr (.inl ⟨_, rfl⟩)) (.inl rfl) h
      cases h'
  | x :: x2 :: l, y :: y2 :: m, hl, hm, h => by
      simp only [List.map_cons, commaJoin] at h
      obtain ⟨⟨h1, h2⟩, h'⟩ := item_inj (hl x (by simp)) (hm y (by simp)) (.inr (.inl ⟨_, rfl⟩)) (.inr (.inl ⟨_, rfl⟩)) h
      have := pairs_inj (l := x2 :: l) (m := y2 :: m) (fun z hz => hl z (List.mem_cons_of_mem _ hz)) (fun z hz => hm z (List.mem_cons_of_mem _ hz))
        (List.cons.inj (List.cons.inj h').2).2
      rw [Prod.ext h1 h2, this]

theorem items_inj {v w : Verdict} (hv : ∀ t ∈ v.tests, ':' ∉ t) (hw : ∀ t ∈ w.tests, ':' ∉ t) (h : v.string = w.string) :
    v.tests.map (fun t => (t, (GoMap.get? v t).getD .unset)) = w.tests.map (fun t => (t, (GoMap.get? w t).getD .unset)) := by
  refine pairs_inj ?_ ?_ ?_
  · intro x hx; obtain ⟨t, ht, rfl⟩ := List.mem_map.1 hx; exact hv t ht
  · intro x hx; obtain ⟨t, ht, rfl⟩ := List.mem_map.1 hx; exact hw t ht
  · simp only [List.map_map]; exact h

end Rtcg.Show
