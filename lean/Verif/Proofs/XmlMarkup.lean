import Verif.Proofs.XmlText

/-
Markup of XML: the reader takes exactly the texts of the grammar.
-/

namespace Rtcg.XmlProofs

open Rtcg Rtcg.Xml Rtcg.Spec.XmlText

/-! ### finding a text -/

theorem occurs_nil {s : Str} : Occurs [] s := ⟨[], s, by simp⟩

theorem not_occurs_short {t s : Str} (h : s.length < t.length) : ¬ Occurs t s := by
  rintro ⟨a, b, rfl⟩
  simp at h
  omega

/-- The first occurrence. -/
theorem findText_iff {x : Char} {pat s a r : Str} :
    findText (pat ++ [x]) s = some (a, r) ↔ s = a ++ (pat ++ [x]) ++ r ∧ ¬ Occurs (pat ++ [x]) (a ++ pat) := by
  induction s generalizing a with
  | nil =>
    unfold findText
    rw [if_neg (by simp)]
    constructor
    · intro h; cases h
    · rintro ⟨h, _⟩; simp at h
  | cons c s ih =>
    unfold findText
    by_cases hp : (pat ++ [x]).isPrefixOf (c :: s) = true
    · rw [if_pos hp]
      obtain ⟨b, hb⟩ := List.isPrefixOf_iff_prefix.mp hp
      constructor
      · intro h
        cases h
        refine ⟨?_, ?_⟩
        · rw [← hb]; simp
        · exact not_occurs_short (by simp)
      · rintro ⟨h, ho⟩
        have ha : a = [] := by
          cases a with
          | nil => rfl
          | cons d a =>
            exfalso
            apply ho
            rw [← hb] at h
            -- (pat ++ [x]) ++ b = (d :: a) ++ (pat ++ [x]) ++ r
            refine ⟨[], ((d :: a) ++ pat).drop (pat ++ [x]).length, ?_⟩
            rw [List.nil_append]
            have hl : (pat ++ [x]).length ≤ ((d :: a) ++ pat).length := by simp
            have h1 := congrArg (List.take (pat ++ [x]).length) h
            rw [List.take_left] at h1
            have h2 : (d :: a) ++ (pat ++ [x]) ++ r = ((d :: a) ++ pat) ++ ([x] ++ r) := by simp
            rw [h2, List.take_append_of_le_length hl] at h1
            have h3 := List.take_append_drop (pat ++ [x]).length ((d :: a) ++ pat)
            rw [← h1] at h3
            exact h3.symm
        subst ha
        rw [List.nil_append] at h
        rw [h]
        simp
    · rw [if_neg hp]
      have hno : ∀ b, c :: s ≠ (pat ++ [x]) ++ b := fun b hb => hp (List.isPrefixOf_iff_prefix.mpr ⟨b, hb.symm⟩)
      cases hf : findText (pat ++ [x]) s with
      | none =>
        simp only
        constructor
        · intro h; cases h
        · rintro ⟨h, ho⟩
          cases a with
          | nil => exact absurd h (hno r)
          | cons d a =>
            simp only [List.cons_append, List.cons.injEq] at h
            have := (ih (a := a)).2 ⟨h.2, fun h' => ho (by rw [List.cons_append, occurs_cons]; exact .inr h')⟩
            rw [hf] at this
            cases this
      | some q =>
        obtain ⟨a', r'⟩ := q
        simp only
        constructor
        · intro h
          cases h
          have := (ih (a := a')).1 hf
          refine ⟨by rw [this.1]; simp, fun h' => ?_⟩
          rw [List.cons_append, occurs_cons] at h'
          rcases h' with ⟨b, h'⟩ | h'
          · refine hno (b ++ x :: r) ?_
            rw [this.1]
            have : c :: (a' ++ (pat ++ [x]) ++ r) = (c :: (a' ++ pat)) ++ x :: r := by simp
            rw [this, h']
            simp
          · exact this.2 h'
        · rintro ⟨h, ho⟩
          cases a with
          | nil => exact absurd h (hno r)
          | cons d a =>
            simp only [List.cons_append, List.cons.injEq] at h
            have := (ih (a := a)).2 ⟨h.2, fun h' => ho (by rw [List.cons_append, occurs_cons]; exact .inr h')⟩
            rw [hf] at this
            cases this
            rw [h.1]

theorem findText_none {x : Char} {pat s : Str} : findText (pat ++ [x]) s = none ↔ ¬ Occurs (pat ++ [x]) s := by
  induction s with
  | nil =>
    unfold findText
    rw [if_neg (by simp)]
    exact ⟨fun _ => not_occurs_short (by simp), fun _ => rfl⟩
  | cons c s ih =>
    unfold findText
    rw [occurs_cons]
    by_cases hp : (pat ++ [x]).isPrefixOf (c :: s) = true
    · rw [if_pos hp]
      obtain ⟨b, hb⟩ := List.isPrefixOf_iff_prefix.mp hp
      constructor
      · intro h; cases h
      · intro h; exact absurd (.inl ⟨b, hb.symm⟩) h
    · rw [if_neg hp]
      have hno : ¬ ∃ b, c :: s = (pat ++ [x]) ++ b := fun ⟨b, hb⟩ => hp (List.isPrefixOf_iff_prefix.mpr ⟨b, hb.symm⟩)
      cases hf : findText (pat ++ [x]) s with
      | none => simp only [true_iff]; exact fun h => h.elim hno (ih.1 hf)
      | some q =>
        simp only [reduceCtorEq, false_iff]
        refine fun hno => hno (.inr (Classical.byContradiction fun h => ?_))
        rw [ih.2 h] at hf
        cases hf

/-! ### the XML declaration -/

theorem parameter_iff (name content v : Str) : Parameter name content v ↔
    ∃ a q b, findText (name ++ ['=']) content = some (a, q :: (v ++ q :: b)) ∧ q ∈ ['"', '\''] ∧ q ∉ v := by
  constructor
  · rintro ⟨a, q, b, h, hq, hv, hfirst⟩
    refine ⟨a, q, b, ?_, hq, hv⟩
    rw [findText_iff]
    refine ⟨by rw [h]; simp, ?_⟩
    rintro ⟨a', b', h'⟩
    have := hfirst a' (b' ++ '=' :: q :: (v ++ q :: b)) (by
      rw [h]
      have : a ++ name ++ '=' :: q :: (v ++ q :: b) = (a ++ name) ++ '=' :: q :: (v ++ q :: b) := rfl
      rw [this, h']
      simp)
    have hl := congrArg List.length h'
    simp at hl
    omega
  · rintro ⟨a, q, b, h, hq, hv⟩
    obtain ⟨h1, h2⟩ := findText_iff.1 h
    refine ⟨a, q, b, by rw [h1]; simp, hq, hv, ?_⟩
    intro a' b' h'
    apply Classical.byContradiction
    intro hlt
    apply h2
    rw [h1] at h'
    have h3 : a ++ (name ++ ['=']) ++ q :: (v ++ q :: b) = (a ++ name) ++ ('=' :: q :: (v ++ q :: b)) := by simp
    have h4 : a' ++ name ++ '=' :: b' = (a' ++ (name ++ ['='])) ++ b' := by simp
    rw [h3, h4, List.append_eq_append_iff] at h'
    rcases h' with ⟨c, hc1, hc2⟩ | ⟨c, hc1, hc2⟩
    · have hl := congrArg List.length hc1
      simp at hl
      have : c = [] := List.eq_nil_of_length_eq_zero (by omega)
      subst this
      rw [List.append_nil] at hc1
      exact ⟨a', [], by rw [← hc1]; simp⟩
    · exact ⟨a', c, hc1⟩

theorem procInst_cases (name content : Str) :
    (∃ v, Parameter name content v ∧ procInst name content = v) ∨ ((∀ v, ¬ Parameter name content v) ∧ procInst name content = []) := by
  unfold procInst
  cases hf : findText (name ++ ['=']) content with
  | none =>
    refine .inr ⟨fun v hv => ?_, rfl⟩
    obtain ⟨a, q, b, h, _⟩ := (parameter_iff _ _ _).1 hv
    rw [hf] at h; cases h
  | some p =>
    obtain ⟨a, s⟩ := p
    simp only
    cases s with
    | nil =>
      refine .inr ⟨fun v hv => ?_, rfl⟩
      obtain ⟨a, q, b, h, _⟩ := (parameter_iff _ _ _).1 hv
      rw [hf] at h; cases h
    | cons q s =>
      simp only
      by_cases hq : q ≠ '\'' ∧ q ≠ '"'
      · rw [if_pos hq]
        refine .inr ⟨fun v hv => ?_, rfl⟩
        obtain ⟨a, q', b, h, hq', _⟩ := (parameter_iff _ _ _).1 hv
        rw [hf] at h; cases h
        simp at hq'
        exact hq'.elim hq.2 hq.1
      · rw [if_neg hq]
        have hq' : q ∈ ['"', '\''] := by
          simp only [List.mem_cons, List.not_mem_nil, or_false]
          by_cases h1 : q = '"'
          · exact .inl h1
          · exact .inr (Classical.byContradiction fun h2 => hq ⟨h2, h1⟩)
        cases hc : cut q s with
        | none =>
          refine .inr ⟨fun v hv => ?_, rfl⟩
          obtain ⟨a, q', b, h, _, _⟩ := (parameter_iff _ _ _).1 hv
          rw [hf] at h; cases h
          exact absurd (by simp) (cut_none.1 hc)
        | some p =>
          obtain ⟨v, b⟩ := p
          have h' := cut_iff.1 hc
          exact .inl ⟨v, (parameter_iff _ _ _).2 ⟨a, q, b, by rw [hf, h'.1], hq', h'.2⟩, rfl⟩

theorem parameter_unique {name content v w : Str} (h : Parameter name content v) (h' : Parameter name content w) : v = w := by
  obtain ⟨a, q, b, h1, _, hv⟩ := (parameter_iff _ _ _).1 h
  obtain ⟨a', q', b', h2, _, hw⟩ := (parameter_iff _ _ _).1 h'
  rw [h1] at h2
  simp only [Option.some.injEq, Prod.mk.injEq, List.cons.injEq] at h2
  obtain ⟨_, rfl, h3⟩ := h2
  have e1 := (cut_iff (s := v ++ q :: b) (a := v) (b := b)).2 ⟨rfl, hv⟩
  have e2 := cut_iff.2 ⟨h3, hw⟩
  rw [e1] at e2
  cases e2
  rfl

theorem lower_utf8 (c d : Char) (hd : d ∈ c!"utf-8") : lowerChar c = d ↔ c.toLower = d := by
  by_cases hc : 'A' ≤ c ∧ c ≤ 'Z'
  · have hm : c ∈ c!"ABCDEFGHIJKLMNOPQRSTUVWXYZ" := by
      have h1 : c ∈ (List.range ('Z'.toNat + 1)).map Char.ofNat := by
        refine List.mem_map.mpr ⟨c.toNat, List.mem_range.mpr ?_, Char.ofNat_toNat c⟩
        have : c.toNat ≤ 'Z'.toNat := hc.2
        omega
      revert hc
      revert h1
      clear hd
      generalize c = x
      revert x
      decide +kernel
    have : ∀ x ∈ c!"ABCDEFGHIJKLMNOPQRSTUVWXYZ", lowerChar x = x.toLower := by decide +kernel
    rw [this c hm]
  · have h1 : c.toLower = c := by
      unfold Char.toLower
      rw [dif_neg]
      exact hc
    rw [h1]
    unfold lowerChar
    rw [if_neg hc]
    split
    · rename_i h
      subst h
      revert hd
      generalize d = x
      revert x
      decide +kernel
    · split
      · rename_i h
        subst h
        revert hd
        generalize d = x
        revert x
        decide +kernel
      · rfl

theorem isUtf8_iff (v : Str) : isUtf8 v = true ↔ v.map Char.toLower = c!"utf-8" := by
  rw [isUtf8, decide_eq_true_eq, toLower]
  match v with
  | [] => simp
  | [a] => simp
  | [a, b] => simp
  | [a, b, c] => simp
  | [a, b, c, d] => simp
  | [a, b, c, d, e] =>
    simp only [List.map_cons, List.map_nil, List.cons.injEq, and_true]
    exact and_congr (lower_utf8 a 'u' (by simp)) (and_congr (lower_utf8 b 't' (by simp)) (and_congr (lower_utf8 c 'f' (by simp))
      (and_congr (lower_utf8 d '-' (by simp)) (lower_utf8 e '8' (by simp)))))
  | a :: b :: c :: d :: e :: f :: v => simp

theorem declOK_iff (content : Str) : declOK content = true ↔ Declaration content := by
  simp only [declOK, Declaration, Bool.and_eq_true, Bool.or_eq_true, decide_eq_true_eq, isUtf8_iff]
  apply and_congr
  · rcases procInst_cases c!"version" content with ⟨v, h, hv⟩ | ⟨h, hv⟩
    · rw [hv]
      exact ⟨fun h' w hw => parameter_unique h hw ▸ h', fun h' => h' v h⟩
    · rw [hv]
      exact ⟨fun _ w hw => absurd hw (h w), fun _ => .inl rfl⟩
  · rcases procInst_cases c!"encoding" content with ⟨v, h, hv⟩ | ⟨h, hv⟩
    · rw [hv]
      exact ⟨fun h' w hw => parameter_unique h hw ▸ h', fun h' => h' v h⟩
    · rw [hv]
      exact ⟨fun _ w hw => absurd hw (h w), fun _ => .inl rfl⟩

/-! ### instructions, comments, declarations -/

theorem occurs_question {content : Str} : Occurs c!"?>" (content ++ ['?']) ↔ Occurs c!"?>" content := by
  constructor
  · rintro ⟨a, b, h⟩
    rcases List.eq_nil_or_concat b with rfl | ⟨b', x, rfl⟩
    · have := congrArg List.getLast? h
      simp at this
    · refine ⟨a, b', ?_⟩
      have := congrArg List.dropLast h
      simpa [← List.append_assoc, List.dropLast_concat] using this
  · exact occurs_append_left

theorem noBlank_iff {s : Str} : NoBlank s ↔ ∀ c r, s = c :: r → ¬ Blanks [c] := by
  constructor
  · intro h c r hs hb
    have := h c r hs
    rw [(isBlank_iff c).2 (hb c (by simp))] at this
    cases this
  · intro h c r hs
    cases hb : isBlank c with
    | false => rfl
    | true =>
      refine absurd ?_ (h c r hs)
      intro x hx
      simp at hx
      subst hx
      exact (isBlank_iff _).1 hb

theorem notName_append {a b : Str} (hb : ∀ c r, b = c :: r → ¬ NameChar c) : NotName (a ++ b) ↔ NotName a := by
  constructor
  · intro h c r hc
    exact h c (r ++ b) (by rw [hc]; rfl)
  · intro h c r hc
    cases a with
    | nil => exact hb c r hc
    | cons d a => simp at hc; exact h c a (by rw [hc.1])

theorem not_nameChar {c : Char} (h : inName c = false) : ¬ NameChar c := by
  intro h'
  rw [(inName_iff c).2 h'] at h
  cases h

theorem readProcInst_iff {N : XmlNames} {s r : Str} :
    readProcInst N s = .ok r ↔ ∃ t, c!"<?" ++ s = t ++ r ∧ ProcInst N t := by
  unfold readProcInst
  constructor
  · intro h
    cases hn : readName N s with
    | error e => rw [hn] at h; cases h
    | ok p =>
      obtain ⟨target, q⟩ := p
      obtain ⟨rfl, hname, hnot⟩ := readName_iff.1 hn
      rw [hn] at h
      simp only at h
      cases hf : findText c!"?>" (space q) with
      | none => rw [hf] at h; cases h
      | some p =>
        obtain ⟨content, r'⟩ := p
        rw [hf] at h
        simp only at h
        split at h
        · cases h
        · rename_i hd
          cases h
          obtain ⟨w, hw, hwb, hnb⟩ := space_split q
          obtain ⟨h1, h2⟩ := (findText_iff (pat := ['?']) (x := '>')).1 hf
          rw [h1] at hw
          refine ⟨c!"<?" ++ target ++ w ++ content ++ c!"?>", by rw [hw]; simp, target, w, content, rfl, hname, ?_, hwb, ?_, ?_, ?_⟩
          · intro c q' hq
            exact hnot c (q' ++ c!"?>" ++ r) (by rw [hw]; have := congrArg (· ++ (c!"?>" ++ r)) hq; simpa using this)
          · intro c q' hq
            refine noBlank_iff.1 hnb c (q' ++ c!"?>" ++ r) ?_
            rw [h1, hq]; simp
          · exact fun h => h2 (occurs_question.2 h)
          · intro ht
            rw [← declOK_iff]
            exact Classical.byContradiction fun hno => hd ⟨ht, hno⟩
  · rintro ⟨t, hs, target, w, content, rfl, hname, hnot, hwb, hnb, hocc, hdecl⟩
    have hs : s = target ++ (w ++ content ++ c!"?>" ++ r) := by simpa using hs
    have hn : readName N s = .ok (target, w ++ content ++ c!"?>" ++ r) := by
      refine readName_iff.2 ⟨hs, hname, ?_⟩
      rw [List.append_assoc _ c!"?>"]
      exact (notName_append (by intro c q h; simp at h; rw [← h.1]; exact not_nameChar (by decide))).2 hnot
    have hsp : space (w ++ content ++ c!"?>" ++ r) = content ++ c!"?>" ++ r := by
      rw [List.append_assoc, List.append_assoc, space_append hwb, ← List.append_assoc]
      refine space_noBlank ?_
      intro c q h
      cases content with
      | nil => simp at h; rw [← h.1]; decide
      | cons d content =>
        simp at h
        exact (noBlank_iff.2 hnb) c content (by rw [h.1])
    have hf : findText c!"?>" (content ++ c!"?>" ++ r) = some (content, r) :=
      (findText_iff (pat := ['?']) (x := '>')).2 ⟨rfl, fun h => hocc (occurs_question.1 h)⟩
    simp only [hn, hsp, hf]
    rw [if_neg]
    rintro ⟨ht, hno⟩
    exact hno ((declOK_iff _).2 (hdecl ht))

theorem readComment_iff {s r : Str} : readComment s = .ok r ↔ ∃ t, c!"<!--" ++ s = t ++ r ∧ Comment t := by
  unfold readComment
  constructor
  · intro h
    cases hf : findText c!"--" s with
    | none => rw [hf] at h; cases h
    | some p =>
      obtain ⟨body, q⟩ := p
      rw [hf] at h
      simp only at h
      obtain ⟨h1, h2⟩ := (findText_iff (pat := ['-']) (x := '-')).1 hf
      cases q with
      | nil => cases h
      | cons c q =>
        simp only at h
        split at h
        · rename_i hc
          cases h
          exact ⟨c!"<!--" ++ body ++ c!"-->", by rw [h1, hc]; simp, body, rfl, h2⟩
        · cases h
  · rintro ⟨t, hs, body, rfl, ho⟩
    have hs : s = body ++ c!"--" ++ '>' :: r := by simpa using hs
    have hf : findText c!"--" s = some (body, '>' :: r) := (findText_iff (pat := ['-']) (x := '-')).2 ⟨hs, ho⟩
    simp only [hf, if_true]

theorem skipInner_iff {s r : Str} : skipInner s = .ok r ↔ ∃ b, s = b ++ c!"-->" ++ r ∧ ¬ Occurs c!"-->" (b ++ c!"--") := by
  unfold skipInner
  constructor
  · intro h
    cases hf : findText c!"-->" s with
    | none => rw [hf] at h; cases h
    | some p =>
      obtain ⟨body, q⟩ := p
      rw [hf] at h
      cases h
      obtain ⟨h1, h2⟩ := (findText_iff (pat := ['-', '-']) (x := '>')).1 hf
      exact ⟨body, h1, h2⟩
  · rintro ⟨b, hs, ho⟩
    have hf : findText c!"-->" s = some (b, r) := (findText_iff (pat := ['-', '-']) (x := '>')).2 ⟨hs, ho⟩
    simp only [hf]

/-- So many insides, each ended by `>`. -/
def Insides : Nat → Str → Str → Prop
  | 0, s, r => ∃ b, s = b ++ '>' :: r ∧ Inside b
  | d + 1, s, r => ∃ b s', s = b ++ '>' :: s' ∧ Inside b ∧ Insides d s' r

theorem insides_prefix {d : Nat} {p s r : Str} (hp : ∀ b, Inside b → Inside (p ++ b)) (h : Insides d s r) : Insides d (p ++ s) r := by
  cases d with
  | zero =>
    obtain ⟨b, rfl, hb⟩ := h
    exact ⟨p ++ b, by simp, hp b hb⟩
  | succ d =>
    obtain ⟨b, s', rfl, hb, h⟩ := h
    exact ⟨p ++ b, s', by simp, hp b hb, h⟩

theorem directive_sound : ∀ (n : Nat) (iq : Option Char) (d : Nat) (s r : Str), s.length < n →
    (∀ q, iq = some q → q ∈ ['"', '\'']) → readDirective iq d s = .ok r →
    (iq = none → Insides d s r) ∧ (∀ q, iq = some q → ∃ a s', s = a ++ q :: s' ∧ q ∉ a ∧ Insides d s' r) := by
  intro n
  induction n with
  | zero => intro iq d s r h; omega
  | succ n ih =>
    intro iq d s r hn hiq h
    rw [readDirective.eq_def] at h
    cases s with
    | nil => cases h
    | cons b s =>
      simp only [List.length_cons] at hn
      simp only at h
      by_cases h1 : iq = some b
      · rw [if_pos h1] at h
        subst h1
        have := (ih none d s r (by omega) (by simp) h).1 rfl
        refine ⟨by simp, ?_⟩
        intro q hq
        cases hq
        exact ⟨[], s, rfl, by simp, this⟩
      · rw [if_neg h1] at h
        by_cases h2 : iq ≠ none
        · rw [if_pos h2] at h
          refine ⟨fun h' => absurd h' h2, ?_⟩
          intro q hq
          obtain ⟨a, s', rfl, ha, hin⟩ := (ih iq d s r (by omega) hiq h).2 q hq
          refine ⟨b :: a, s', rfl, ?_, hin⟩
          simp only [List.mem_cons, not_or]
          exact ⟨fun hqb => h1 (by rw [hq, hqb]), ha⟩
        · rw [if_neg h2] at h
          have hnone : iq = none := Classical.not_not.mp h2
          subst hnone
          refine ⟨fun _ => ?_, by simp⟩
          by_cases h3 : b = '>'
          · rw [if_pos h3] at h
            subst h3
            cases d with
            | zero => cases h; exact ⟨[], rfl, .nil⟩
            | succ d =>
              have := (ih none d s r (by omega) (by simp) h).1 rfl
              exact ⟨[], s, rfl, .nil, this⟩
          · rw [if_neg h3] at h
            by_cases h4 : b = '\'' ∨ b = '"'
            · rw [if_pos h4] at h
              have hb : b ∈ ['"', '\''] := by simp; exact h4.symm
              obtain ⟨a, s', rfl, ha, hin⟩ := (ih (some b) d s r (by omega) (by intro q hq; cases hq; exact hb) h).2 b rfl
              have : b :: (a ++ b :: s') = (b :: (a ++ [b])) ++ s' := by simp
              rw [this]
              refine insides_prefix ?_ hin
              intro x hx
              have := Inside.quoted hb ha hx
              simpa using this
            · rw [if_neg h4] at h
              by_cases h5 : b = '<'
              · rw [if_pos h5] at h
                subst h5
                by_cases h6 : (c!"!--").isPrefixOf s = true
                · rw [if_pos h6] at h
                  split at h
                  · cases h
                  · rename_i r' hr'
                    obtain ⟨b', hb'⟩ := List.isPrefixOf_iff_prefix.mp h6
                    have hdrop : s.drop 3 = b' := by rw [← hb']; rfl
                    rw [hdrop] at hr'
                    have hl := skipInner_length hr'
                    obtain ⟨c, rfl, ho⟩ := skipInner_iff.1 hr'
                    have hlen : s.length = 3 + (c ++ c!"-->" ++ r').length := by rw [← hb']; simp; omega
                    have := (ih none d r' r (by omega) (by simp) h).1 rfl
                    have e : '<' :: s = (c!"<!--" ++ c ++ c!"-->") ++ r' := by rw [← hb']; simp
                    rw [e]
                    refine insides_prefix ?_ this
                    intro x hx
                    have := Inside.comment ho hx
                    simpa using this
                · rw [if_neg h6] at h
                  obtain ⟨b', s', rfl, hb', hin⟩ := (ih none (d + 1) s r (by omega) (by simp) h).1 rfl
                  have e : '<' :: (b' ++ '>' :: s') = ('<' :: (b' ++ ['>'])) ++ s' := by simp
                  rw [e]
                  refine insides_prefix ?_ hin
                  intro x hx
                  have := Inside.nested (t := x) (fun q hq => h6 (List.isPrefixOf_iff_prefix.mpr ⟨q ++ '>' :: s', by rw [hq]; simp⟩)) hb' hx
                  simpa using this
              · rw [if_neg h5] at h
                have := (ih none d s r (by omega) (by simp) h).1 rfl
                refine insides_prefix (p := [b]) ?_ this
                intro x hx
                refine .char ?_ hx
                simp only [List.mem_cons, List.not_mem_nil, or_false, not_or]
                exact ⟨h5, h3, fun h => h4 (.inr h), fun h => h4 (.inl h)⟩

theorem directive_quote {q : Char} {d : Nat} (a s : Str) (ha : q ∉ a) : readDirective (some q) d (a ++ q :: s) = readDirective none d s := by
  induction a with
  | nil =>
    rw [List.nil_append, readDirective.eq_def]
    simp only [if_true]
  | cons c a ih =>
    simp at ha
    rw [List.cons_append, readDirective.eq_def]
    simp only
    rw [if_neg (by simpa using ha.1), if_pos (by simp)]
    exact ih ha.2

theorem directive_complete {b : Str} (h : Inside b) : ∀ (d : Nat) (s : Str),
    readDirective none d (b ++ '>' :: s) = match d with
      | 0 => .ok s
      | d + 1 => readDirective none d s := by
  induction h with
  | nil =>
    intro d s
    rw [List.nil_append, readDirective.eq_def]
    simp only [reduceCtorEq, if_false, ne_eq, not_true, if_true]
    cases d <;> rfl
  | @char c t hc h ih =>
    intro d s
    simp only [List.mem_cons, List.not_mem_nil, or_false, not_or] at hc
    rw [List.cons_append, readDirective.eq_def]
    simp only [reduceCtorEq, if_false, ne_eq, not_true]
    rw [if_neg hc.2.1, if_neg (fun h => h.elim hc.2.2.2 hc.2.2.1), if_neg hc.1]
    exact ih d s
  | @quoted q a t hq ha h ih =>
    intro d s
    have hq' : q ≠ '>' ∧ (q = '\'' ∨ q = '"') := by
      simp at hq
      rcases hq with rfl | rfl <;> decide
    have e : q :: (a ++ q :: t) ++ '>' :: s = q :: (a ++ q :: (t ++ '>' :: s)) := by simp
    rw [e, readDirective.eq_def]
    simp only [reduceCtorEq, if_false, ne_eq, not_true]
    rw [if_neg hq'.1, if_pos hq'.2, directive_quote _ _ ha]
    exact ih d s
  | @comment a t ha h ih =>
    intro d s
    have e : c!"<!--" ++ (a ++ c!"-->" ++ t) ++ '>' :: s = '<' :: (c!"!--" ++ (a ++ c!"-->" ++ (t ++ '>' :: s))) := by simp
    rw [e, readDirective.eq_def]
    simp only [reduceCtorEq, if_false, ne_eq, not_true, Char.reduceEq, or_self, if_true]
    rw [if_pos (by simp)]
    have hi : skipInner (List.drop 3 (c!"!--" ++ (a ++ c!"-->" ++ (t ++ '>' :: s)))) = .ok (t ++ '>' :: s) :=
      skipInner_iff.2 ⟨a, by simp, ha⟩
    split
    · rename_i e he
      rw [hi] at he; cases he
    · rename_i r' he
      rw [hi] at he; cases he
      exact ih d s
  | @nested a t hc ha h iha ih =>
    intro d s
    have e : '<' :: (a ++ '>' :: t) ++ '>' :: s = '<' :: (a ++ '>' :: (t ++ '>' :: s)) := by simp
    rw [e, readDirective.eq_def]
    simp only [reduceCtorEq, if_false, ne_eq, not_true, Char.reduceEq, or_self, if_true]
    rw [if_neg]
    · rw [iha (d + 1)]
      exact ih d s
    · intro hp
      obtain ⟨q, hq⟩ := List.isPrefixOf_iff_prefix.mp hp
      rw [List.append_eq_append_iff] at hq
      rcases hq with ⟨c, h1, h2⟩ | ⟨c, h1, h2⟩
      · exact hc c h1
      · cases c with
        | nil =>
          rw [List.append_nil] at h1
          exact hc [] (by rw [← h1]; rfl)
        | cons x c =>
          simp at h2
          have : '>' ∈ c!"!--" := by rw [h1, ← h2.1]; simp
          exact absurd this (by decide)

theorem readDirective_iff {s r : Str} : readDirective none 0 s = .ok r ↔ ∃ b, s = b ++ '>' :: r ∧ Inside b := by
  constructor
  · intro h
    exact (directive_sound _ none 0 s r (Nat.lt_succ_self _) (by simp) h).1 rfl
  · rintro ⟨b, rfl, hb⟩
    exact directive_complete hb 0 r

end Rtcg.XmlProofs
