import Verif.Proofs.XmlMarkup

/-
Elements and documents of XML: the reader takes exactly the texts of the grammar.
-/

namespace Rtcg.XmlProofs

open Rtcg Rtcg.Xml Rtcg.Spec.XmlText

theorem blank_notName {w s : Str} (hw : Blanks w) (hs : NotName s) : NotName (w ++ s) := by
  cases w with
  | nil => exact hs
  | cons c w =>
    intro d r h
    simp at h
    have hc := hw c (by simp)
    rw [← h.1]
    apply not_nameChar
    simp only [List.mem_cons, List.not_mem_nil, or_false] at hc
    rcases hc with rfl | rfl | rfl | rfl <;> decide

theorem notName_cons {c : Char} {s : Str} (h : inName c = false) : NotName (c :: s) := by
  intro d r hd
  cases hd
  exact not_nameChar h

theorem qname_head {N : XmlNames} {n : Str} (h : QName N n) : ∃ c q, n = c :: q ∧ inName c = true := by
  obtain ⟨⟨c, q, rfl, hc, _⟩, _⟩ := h
  exact ⟨c, q, rfl, (inName_iff c).2 (nameStart_char hc)⟩

/-! ### attributes and tags -/

theorem readValue_iff {s v r : Str} : readValue s = .ok (v, r) ↔ ∃ tv, s = tv ++ r ∧ AttValue tv v := by
  unfold readValue
  constructor
  · intro h
    cases s with
    | nil => cases h
    | cons q s =>
      simp only at h
      split at h
      · rename_i hq
        have hq : q ∈ ['"', '\''] := by simpa using hq
        obtain ⟨u, rfl, hu⟩ := (readQuoted_iff hq).1 h
        exact ⟨q :: (u ++ [q]), by simp, q, u, hq, rfl, hu⟩
      · cases h
  · rintro ⟨tv, rfl, q, body, hq, rfl, hb⟩
    simp only [List.cons_append, List.append_assoc, List.nil_append]
    rw [if_pos (by simpa using hq)]
    exact (readQuoted_iff hq).2 ⟨body, rfl, hb⟩

theorem attValue_head {tv v : Str} (h : AttValue tv v) : ∃ q t, tv = q :: t ∧ isBlank q = false := by
  obtain ⟨q, body, hq, rfl, _⟩ := h
  refine ⟨q, _, rfl, ?_⟩
  simp only [List.mem_cons, List.not_mem_nil, or_false] at hq
  rcases hq with rfl | rfl <;> decide

theorem readAttr_iff {N : XmlNames} {s r : Str} {a : Str × Str} :
    readAttr N s = .ok (a, r) ↔ ∃ n w1 w2 tv, s = n ++ w1 ++ '=' :: (w2 ++ tv) ++ r ∧ QName N n ∧ LocalPart n a.1 ∧ Blanks w1 ∧ Blanks w2 ∧
      AttValue tv a.2 := by
  unfold readAttr
  constructor
  · intro h
    cases hn : readNsName N s with
    | error e => rw [hn] at h; cases h
    | ok p =>
      obtain ⟨n, q⟩ := p
      obtain ⟨rfl, hq, _⟩ := readNsName_iff.1 hn
      rw [hn] at h
      simp only at h
      obtain ⟨w1, hw1, hb1, _⟩ := space_split q
      cases hs : space q with
      | nil => rw [hs] at h; cases h
      | cons c q' =>
        rw [hs] at h hw1
        simp only at h
        split at h
        · cases h
        · rename_i hc
          have hc := Classical.not_not.mp hc
          subst hc
          obtain ⟨w2, hw2, hb2, _⟩ := space_split q'
          cases hv : readValue (space q') with
          | error e => rw [hv] at h; cases h
          | ok p =>
            obtain ⟨v, r'⟩ := p
            rw [hv] at h
            cases h
            obtain ⟨tv, h1, h2⟩ := readValue_iff.1 hv
            refine ⟨n, w1, w2, tv, ?_, hq, (localPart_iff _ _).2 rfl, hb1, hb2, h2⟩
            rw [hw1, hw2, h1]
            simp
  · rintro ⟨n, w1, w2, tv, rfl, hq, hl, hb1, hb2, hv⟩
    have hn : readNsName N (n ++ w1 ++ '=' :: (w2 ++ tv) ++ r) = .ok (n, w1 ++ '=' :: (w2 ++ tv ++ r)) := by
      refine readNsName_iff.2 ⟨by simp, hq, blank_notName hb1 (notName_cons (by decide))⟩
    have hs1 : space (w1 ++ '=' :: (w2 ++ tv ++ r)) = '=' :: (w2 ++ tv ++ r) := by
      rw [space_append hb1, space_noBlank]
      intro c q h; cases h; decide
    have hs2 : space (w2 ++ tv ++ r) = tv ++ r := by
      rw [List.append_assoc, space_append hb2, space_noBlank]
      obtain ⟨q, t, rfl, hq⟩ := attValue_head hv
      intro c q h; cases h; exact hq
    have hv' : readValue (tv ++ r) = .ok (a.2, r) := readValue_iff.2 ⟨tv, rfl, hv⟩
    simp only [hn, hs1, hs2, hv']
    rw [if_neg (by simp), ← (localPart_iff _ _).1 hl]

/-- The end of a start tag. -/
def tagEnd (empty : Bool) : Str := if empty then c!"/>" else c!">"

theorem readAttrs_sound {N : XmlNames} : ∀ (fuel : Nat) (s : Str) (as : List (Str × Str)) (e : Bool) (r : Str),
    readAttrs N fuel s = .ok (as, e, r) → ∃ ta w, s = ta ++ w ++ tagEnd e ++ r ∧ Attributes N ta as ∧ Blanks w := by
  intro fuel
  induction fuel with
  | zero => intro s as e r h; cases h
  | succ fuel ih =>
    intro s as e r h
    unfold readAttrs at h
    obtain ⟨w, hw, hb, _⟩ := space_split s
    cases hs : space s with
    | nil => rw [hs] at h; cases h
    | cons c q =>
      rw [hs] at h hw
      simp only at h
      by_cases hc : c = '/'
      · rw [if_pos hc] at h
        cases q with
        | nil => cases h
        | cons d q =>
          simp only at h
          by_cases hd : d = '>'
          · rw [if_pos hd] at h
            cases h
            exact ⟨[], w, by rw [hw, hc, hd]; simp [tagEnd], .nil, hb⟩
          · rw [if_neg hd] at h; cases h
      · rw [if_neg hc] at h
        by_cases hc2 : c = '>'
        · rw [if_pos hc2] at h
          cases h
          exact ⟨[], w, by rw [hw, hc2]; simp [tagEnd], .nil, hb⟩
        · rw [if_neg hc2] at h
          cases ha : readAttr N (c :: q) with
          | error e => rw [ha] at h; cases h
          | ok p =>
            obtain ⟨a, q'⟩ := p
            rw [ha] at h
            simp only at h
            cases hr : readAttrs N fuel q' with
            | error e => rw [hr] at h; cases h
            | ok p =>
              obtain ⟨as', e', r'⟩ := p
              rw [hr] at h
              cases h
              obtain ⟨ta, w', h1, h2, h3⟩ := ih _ _ _ _ hr
              obtain ⟨n, w1, w2, tv, h4, hq, hl, hb1, hb2, hv⟩ := readAttr_iff.1 ha
              refine ⟨w ++ n ++ w1 ++ '=' :: (w2 ++ tv) ++ ta, w', ?_, .cons hb hq hl hb1 hb2 hv h2, h3⟩
              rw [hw, h4, h1]
              simp

theorem readAttrs_complete {N : XmlNames} {ta : Str} {as : List (Str × Str)} (h : Attributes N ta as) :
    ∀ (fuel : Nat) (w : Str) (e : Bool) (r : Str), as.length < fuel → Blanks w →
      readAttrs N fuel (ta ++ w ++ tagEnd e ++ r) = .ok (as, e, r) := by
  induction h with
  | nil =>
    intro fuel w e r hf hb
    obtain ⟨fuel, rfl⟩ : ∃ f, fuel = f + 1 := ⟨fuel - 1, by simp at hf; omega⟩
    have hs : space ([] ++ w ++ tagEnd e ++ r) = tagEnd e ++ r := by
      rw [List.nil_append, List.append_assoc, space_append hb, space_noBlank]
      intro c q h
      cases e <;> (simp [tagEnd] at h; rw [← h.1]; decide)
    unfold readAttrs
    rw [hs]
    cases e <;> simp [tagEnd]
  | @cons w n l w1 w2 tv v t as hw hn hl hw1 hw2 hv h ih =>
    intro fuel w' e r hf hb
    obtain ⟨fuel, rfl⟩ : ∃ f, fuel = f + 1 := ⟨fuel - 1, by simp at hf; omega⟩
    obtain ⟨c, q, rfl, hc⟩ := qname_head hn
    have hcb : isBlank c = false ∧ c ≠ '/' ∧ c ≠ '>' := by
      refine ⟨?_, ?_, ?_⟩
      · cases hb : isBlank c with
        | false => rfl
        | true =>
          have := (isBlank_iff c).1 hb
          simp only [List.mem_cons, List.not_mem_nil, or_false] at this
          rcases this with rfl | rfl | rfl | rfl <;> exact absurd hc (by decide)
      · rintro rfl; exact absurd hc (by decide)
      · rintro rfl; exact absurd hc (by decide)
    have hs : space (w ++ (c :: q) ++ w1 ++ '=' :: (w2 ++ tv) ++ t ++ w' ++ tagEnd e ++ r) =
        c :: (q ++ w1 ++ '=' :: (w2 ++ tv) ++ (t ++ w' ++ tagEnd e ++ r)) := by
      have : w ++ (c :: q) ++ w1 ++ '=' :: (w2 ++ tv) ++ t ++ w' ++ tagEnd e ++ r =
          w ++ (c :: (q ++ w1 ++ '=' :: (w2 ++ tv) ++ (t ++ w' ++ tagEnd e ++ r))) := by simp
      rw [this, space_append hw, space_noBlank]
      intro d p h; cases h; exact hcb.1
    have ha : readAttr N (c :: (q ++ w1 ++ '=' :: (w2 ++ tv) ++ (t ++ w' ++ tagEnd e ++ r))) = .ok ((l, v), t ++ w' ++ tagEnd e ++ r) :=
      readAttr_iff.2 ⟨c :: q, w1, w2, tv, by simp, hn, hl, hw1, hw2, hv⟩
    have hr := ih fuel w' e r (by simp at hf; omega) hb
    unfold readAttrs
    simp only [hs, ha, hr]
    rw [if_neg hcb.2.1, if_neg hcb.2.2]

theorem attributes_length {N : XmlNames} {ta : Str} {as : List (Str × Str)} (h : Attributes N ta as) : as.length ≤ ta.length := by
  induction h with
  | nil => exact Nat.le_refl _
  | cons => simp; omega

/-! ### tokens -/

/-- A token and its text, before a rest. -/
inductive TokenText (N : XmlNames) : Token → Str → Str → Prop
  | plain {t s r : Str} (h : CharData t s) (hne : t ≠ []) (hr : r = [] ∨ ∃ q, r = '<' :: q) : TokenText N (.chars s) t r
  | cdata {t s r : Str} (h : CData t s) : TokenText N (.chars s) t r
  | other {t r : Str} (h : Misc N t) : TokenText N .other t r
  | stop {name w r : Str} (hq : QName N name) (hw : Blanks w) : TokenText N (.stop name) (c!"</" ++ name ++ w ++ ['>']) r
  | start {tt name r : Str} {as : List (Str × Str)} {e : Bool} (h : Tag N tt name as) : TokenText N (.start name as e) ('<' :: (tt ++ tagEnd e)) r

theorem chardata_head {t s : Str} (h : CharData t s) : t.head? ≠ some '<' := by
  obtain ⟨h, _⟩ := h
  cases h with
  | nil => simp
  | char hc => simpa using hc.1
  | ref hrefs hr hx h =>
    obtain ⟨m, rfl, _⟩ := reference_shape hr
    simp
  | crlf h => simp
  | cr ht h => simp

theorem readStart_iff {N : XmlNames} {s r : Str} {tok : Token} :
    readStart N s = .ok (tok, r) ↔ ∃ tt name as e, tok = .start name as e ∧ s = tt ++ tagEnd e ++ r ∧ Tag N tt name as := by
  unfold readStart
  constructor
  · intro h
    cases hn : readNsName N s with
    | error e => rw [hn] at h; cases h
    | ok p =>
      obtain ⟨name, q⟩ := p
      obtain ⟨rfl, hq, hnot⟩ := readNsName_iff.1 hn
      rw [hn] at h
      simp only at h
      cases ha : readAttrs N (q.length + 1) q with
      | error e => rw [ha] at h; cases h
      | ok p =>
        obtain ⟨as, e, r'⟩ := p
        rw [ha] at h
        cases h
        obtain ⟨ta, w, rfl, h2, h3⟩ := readAttrs_sound _ _ _ _ _ ha
        refine ⟨name ++ ta ++ w, name, as, e, rfl, by simp, ta, w, rfl, hq, h2, h3, ?_⟩
        intro c p hp
        exact hnot c (p ++ tagEnd e ++ r) (by rw [hp]; simp)
  · rintro ⟨tt, name, as, e, rfl, rfl, ta, w, rfl, hq, h2, h3, hnot⟩
    have hn : readNsName N (name ++ ta ++ w ++ tagEnd e ++ r) = .ok (name, ta ++ w ++ tagEnd e ++ r) := by
      refine readNsName_iff.2 ⟨by simp, hq, ?_⟩
      rw [List.append_assoc _ (tagEnd e)]
      refine (notName_append ?_).2 hnot
      intro c p h
      apply not_nameChar
      cases e <;> (simp [tagEnd] at h; rw [← h.1]; decide)
    have ha := readAttrs_complete h2 ((ta ++ w ++ tagEnd e ++ r).length + 1) w e r
      (by have := attributes_length h2; simp; omega) h3
    simp only [hn, ha]

theorem readStop_iff {N : XmlNames} {s r : Str} {tok : Token} :
    readStop N s = .ok (tok, r) ↔ ∃ name w, tok = .stop name ∧ s = name ++ w ++ '>' :: r ∧ QName N name ∧ Blanks w := by
  unfold readStop
  constructor
  · intro h
    cases hn : readNsName N s with
    | error e => rw [hn] at h; cases h
    | ok p =>
      obtain ⟨name, q⟩ := p
      obtain ⟨rfl, hq, hnot⟩ := readNsName_iff.1 hn
      rw [hn] at h
      simp only at h
      obtain ⟨w, hw, hb, _⟩ := space_split q
      cases hs : space q with
      | nil => rw [hs] at h; cases h
      | cons c q' =>
        rw [hs] at h hw
        simp only at h
        split at h
        · rename_i hc
          cases h
          exact ⟨name, w, rfl, by rw [hw, hc]; simp, hq, hb⟩
        · cases h
  · rintro ⟨name, w, rfl, rfl, hq, hb⟩
    have hn : readNsName N (name ++ w ++ '>' :: r) = .ok (name, w ++ '>' :: r) :=
      readNsName_iff.2 ⟨by simp, hq, blank_notName hb (notName_cons (by decide))⟩
    have hs : space (w ++ '>' :: r) = '>' :: r := by
      rw [space_append hb, space_noBlank]
      intro c q h; cases h; decide
    simp only [hn, hs, if_true]

theorem readBang_iff {N : XmlNames} {s r : Str} {tok : Token} (hne : ∀ t, ¬ ∃ q, c!"<!" ++ s = t ++ q ∧ ProcInst N t) :
    readBang s = .ok (tok, r) ↔ ∃ t, c!"<!" ++ s = t ++ r ∧ ((∃ c, tok = .chars c ∧ CData t c) ∨ (tok = .other ∧ (Comment t ∨ Directive t))) := by
  unfold readBang
  constructor
  · intro h
    cases s with
    | nil => cases h
    | cons c s =>
      simp only at h
      by_cases hc : c = '-'
      · rw [if_pos hc] at h
        subst hc
        cases s with
        | nil => cases h
        | cons d s =>
          simp only at h
          by_cases hd : d ≠ '-'
          · rw [if_pos hd] at h; cases h
          · rw [if_neg hd] at h
            have hd := Classical.not_not.mp hd
            subst hd
            cases hr : readComment s with
            | error e => rw [hr] at h; cases h
            | ok q =>
              rw [hr] at h
              cases h
              obtain ⟨t, ht, hcm⟩ := readComment_iff.1 hr
              exact ⟨t, ht, .inr ⟨rfl, .inl hcm⟩⟩
      · rw [if_neg hc] at h
        by_cases hb : c = '['
        · rw [if_pos hb] at h
          subst hb
          by_cases hp : (c!"CDATA[").isPrefixOf s = true
          · rw [if_pos hp] at h
            obtain ⟨b, rfl⟩ := List.isPrefixOf_iff_prefix.mp hp
            have hdrop : (c!"CDATA[" ++ b).drop 6 = b := rfl
            rw [hdrop] at h
            cases hr : readText .cdata b with
            | error e => rw [hr] at h; cases h
            | ok p =>
              obtain ⟨t, q⟩ := p
              rw [hr] at h
              cases h
              obtain ⟨u, rfl, h1, h2⟩ := readCData_iff.1 hr
              exact ⟨c!"<![CDATA[" ++ u ++ c!"]]>", by simp, .inl ⟨t, rfl, u, rfl, h1, h2⟩⟩
          · rw [if_neg hp] at h; cases h
        · rw [if_neg hb] at h
          cases hr : readDirective none 0 s with
          | error e => rw [hr] at h; cases h
          | ok q =>
            rw [hr] at h
            cases h
            obtain ⟨b, rfl, hb'⟩ := readDirective_iff.1 hr
            exact ⟨c!"<!" ++ c :: (b ++ ['>']), by simp, .inr ⟨rfl, .inr ⟨c, b, rfl, hc, hb, hb'⟩⟩⟩
  · rintro ⟨t, ht, (⟨c, rfl, u, rfl, h1, h2⟩ | ⟨rfl, hcm | ⟨c, b, rfl, hc, hb, hb'⟩⟩)⟩
    · have hs : s = '[' :: (c!"CDATA[" ++ (u ++ c!"]]>" ++ r)) := by simpa using ht
      subst hs
      have hr : readText .cdata (u ++ c!"]]>" ++ r) = .ok (c, r) := readCData_iff.2 ⟨u, rfl, h1, h2⟩
      have hdrop : (c!"CDATA[" ++ (u ++ c!"]]>" ++ r)).drop 6 = u ++ c!"]]>" ++ r := rfl
      simp only
      rw [if_neg (by decide), if_pos trivial, if_pos (by simp), hdrop, hr]
    · have hcm' := hcm
      obtain ⟨body, rfl, hbody⟩ := hcm'
      have hs : s = '-' :: '-' :: (body ++ c!"-->" ++ r) := by simpa using ht
      subst hs
      have hr : readComment (body ++ c!"-->" ++ r) = .ok r := readComment_iff.2 ⟨_, by simp, hcm⟩
      simp only [if_true, ne_eq, not_true, if_false, hr]
    · have hs : s = c :: (b ++ '>' :: r) := by simpa using ht
      subst hs
      have hr : readDirective none 0 (b ++ '>' :: r) = .ok r := readDirective_iff.2 ⟨b, rfl, hb'⟩
      simp only [hr]
      rw [if_neg hc, if_neg hb]

theorem procInst_head {N : XmlNames} {t : Str} (h : ProcInst N t) : ∃ q, t = c!"<?" ++ q := by
  obtain ⟨target, w, content, rfl, _⟩ := h
  exact ⟨target ++ w ++ content ++ c!"?>", by simp⟩

theorem bang_head {t : Str} (h : Comment t ∨ Directive t) : ∃ q, t = c!"<!" ++ q := by
  rcases h with ⟨b, rfl, _⟩ | ⟨c, b, rfl, _⟩
  · exact ⟨c!"--" ++ b ++ c!"-->", by simp⟩
  · exact ⟨c :: (b ++ ['>']), rfl⟩

theorem tag_head {N : XmlNames} {tt name : Str} {as : List (Str × Str)} (h : Tag N tt name as) :
    ∃ c q, tt = c :: q ∧ c ≠ '/' ∧ c ≠ '?' ∧ c ≠ '!' := by
  obtain ⟨ta, w, rfl, hq, _⟩ := h
  obtain ⟨c, q, rfl, hc⟩ := qname_head hq
  refine ⟨c, q ++ ta ++ w, by simp, ?_, ?_, ?_⟩ <;> (rintro rfl; exact absurd hc (by decide))

theorem readToken_iff {N : XmlNames} {s r : Str} {tok : Token} :
    readToken N s = .ok (tok, r) ↔ ∃ t, s = t ++ r ∧ TokenText N tok t r := by
  have hne : ∀ s' : Str, ∀ t, ¬ ∃ q, c!"<!" ++ s' = t ++ q ∧ ProcInst N t := by
    rintro s' t ⟨q, h, hp⟩
    obtain ⟨p, rfl⟩ := procInst_head hp
    simp at h
  unfold readToken
  constructor
  · intro h
    cases s with
    | nil => cases h
    | cons c s =>
      simp only at h
      by_cases hc : c ≠ '<'
      · rw [if_pos hc] at h
        cases hr : readText .plain (c :: s) with
        | error e => rw [hr] at h; cases h
        | ok p =>
          obtain ⟨t, q⟩ := p
          rw [hr] at h
          cases h
          obtain ⟨u, hu, hcd, hend⟩ := readPlain_iff.1 hr
          refine ⟨u, hu, .plain hcd ?_ hend⟩
          rintro rfl
          rcases hend with rfl | ⟨q, rfl⟩
          · simp at hu
          · simp at hu; exact hc hu.1
      · rw [if_neg hc] at h
        have hc := Classical.not_not.mp hc
        subst hc
        cases s with
        | nil => cases h
        | cons d s =>
          simp only at h
          by_cases hd : d = '/'
          · rw [if_pos hd] at h
            obtain ⟨name, w, rfl, rfl, hq, hw⟩ := readStop_iff.1 h
            exact ⟨c!"</" ++ name ++ w ++ ['>'], by rw [hd]; simp, .stop hq hw⟩
          · rw [if_neg hd] at h
            by_cases hd2 : d = '?'
            · rw [if_pos hd2] at h
              cases hr : readProcInst N s with
              | error e => rw [hr] at h; cases h
              | ok q =>
                rw [hr] at h
                cases h
                obtain ⟨t, ht, hp⟩ := readProcInst_iff.1 hr
                exact ⟨t, by rw [hd2, ← ht]; rfl, .other (.inl hp)⟩
            · rw [if_neg hd2] at h
              by_cases hd3 : d = '!'
              · rw [if_pos hd3] at h
                obtain ⟨t, ht, (⟨c, rfl, hcd⟩ | ⟨rfl, hm⟩)⟩ := (readBang_iff (hne s)).1 h
                · exact ⟨t, by rw [hd3, ← ht]; rfl, .cdata hcd⟩
                · exact ⟨t, by rw [hd3, ← ht]; rfl, .other (.inr hm)⟩
              · rw [if_neg hd3] at h
                obtain ⟨tt, name, as, e, rfl, hs, htag⟩ := readStart_iff.1 h
                exact ⟨'<' :: (tt ++ tagEnd e), by rw [hs]; simp, .start htag⟩
  · rintro ⟨t, rfl, ht⟩
    cases ht with
    | @plain _ s _ h hne' hr =>
      have hrt : readText .plain (t ++ r) = .ok (s, r) := readPlain_iff.2 ⟨t, rfl, h, hr⟩
      have hhead := chardata_head h
      cases t with
      | nil => exact absurd rfl hne'
      | cons c t =>
        simp only [List.cons_append] at hrt ⊢
        rw [if_pos (by simpa using hhead), hrt]
    | @cdata _ s _ h =>
      have h' := h
      obtain ⟨u, rfl, _⟩ := h'
      have := (readBang_iff (N := N) (s := c!"[CDATA[" ++ u ++ c!"]]>" ++ r) (r := r) (tok := .chars s) (hne _)).2
        ⟨_, by simp, .inl ⟨s, rfl, h⟩⟩
      simpa using this
    | @other _ _ h =>
      rcases h with h | h
      · obtain ⟨q, rfl⟩ := procInst_head h
        have := (readProcInst_iff (N := N) (s := q ++ r) (r := r)).2 ⟨_, by simp, h⟩
        simp [this]
      · obtain ⟨q, rfl⟩ := bang_head h
        have := (readBang_iff (N := N) (s := q ++ r) (r := r) (tok := .other) (hne _)).2 ⟨_, by simp, .inr ⟨rfl, h⟩⟩
        simpa using this
    | @stop name w _ hq hw =>
      have := (readStop_iff (N := N) (s := name ++ w ++ '>' :: r) (r := r) (tok := .stop name)).2 ⟨name, w, rfl, rfl, hq, hw⟩
      simpa using this
    | @start tt name _ as e h =>
      obtain ⟨c, q, rfl, h1, h2, h3⟩ := tag_head h
      have := (readStart_iff (N := N) (s := c :: q ++ tagEnd e ++ r) (r := r) (tok := .start name as e)).2 ⟨_, name, as, e, rfl, rfl, h⟩
      have e' : '<' :: (c :: q ++ tagEnd e) ++ r = '<' :: c :: (q ++ tagEnd e ++ r) := by simp
      rw [e']
      simp only
      rw [if_neg (by simp), if_neg h1, if_neg h2, if_neg h3]
      simpa using this

theorem tokenText_ne {N : XmlNames} {tok : Token} {t r : Str} (h : TokenText N tok t r) : 0 < t.length := by
  cases h with
  | plain h hne hr => exact List.length_pos_iff.mpr hne
  | cdata h => obtain ⟨u, rfl, _⟩ := h; simp
  | other h =>
    rcases h with h | h
    · obtain ⟨q, rfl⟩ := procInst_head h; simp
    · obtain ⟨q, rfl⟩ := bang_head h; simp
  | stop hq hw => simp
  | start h => simp

/-! ### content -/

theorem content_head {N : XmlNames} {tc q s : Str} (h : tc ++ '<' :: q = s) (hs : s = [] ∨ ∃ p, s = '<' :: p) :
    tc = [] ∨ ∃ p, tc = '<' :: p := by
  cases tc with
  | nil => exact .inl rfl
  | cons c tc =>
    rcases hs with rfl | ⟨p, rfl⟩
    · simp at h
    · simp at h; exact .inr ⟨tc, by rw [h.1]⟩

theorem readContent_sound {N : XmlNames} : ∀ (fuel : Nat) (s : Str) (kids : List Xml) (name r : Str),
    readContent N fuel s = .ok (kids, name, r) →
    ∃ tc w, s = tc ++ c!"</" ++ name ++ w ++ ['>'] ++ r ∧ Spec.XmlText.Content N tc kids ∧ Blanks w ∧ QName N name := by
  intro fuel
  induction fuel with
  | zero => intro s kids name r h; cases h
  | succ fuel ih =>
    intro s kids name r h
    unfold readContent at h
    cases ht : readToken N s with
    | error e => rw [ht] at h; cases h
    | ok p =>
      obtain ⟨tok, q⟩ := p
      obtain ⟨t, rfl, htt⟩ := readToken_iff.1 ht
      rw [ht] at h
      cases htt with
      | @plain _ s' _ hcd hne hr =>
        simp only at h
        cases hk : readContent N fuel q with
        | error e => rw [hk] at h; cases h
        | ok p =>
          obtain ⟨kids', stop, r'⟩ := p
          rw [hk] at h
          cases h
          obtain ⟨tc, w, rfl, hc, hw, hq⟩ := ih _ _ _ _ hk
          refine ⟨t ++ tc, w, by simp, .text hcd hne ?_ hc, hw, hq⟩
          exact content_head (N := N) (tc := tc) (q := '/' :: (name ++ w ++ ['>'] ++ r)) (by simp) hr
      | @cdata _ s' _ hcd =>
        simp only at h
        cases hk : readContent N fuel q with
        | error e => rw [hk] at h; cases h
        | ok p =>
          obtain ⟨kids', stop, r'⟩ := p
          rw [hk] at h
          cases h
          obtain ⟨tc, w, rfl, hc, hw, hq⟩ := ih _ _ _ _ hk
          exact ⟨t ++ tc, w, by simp, .cdata hcd hc, hw, hq⟩
      | other hm =>
        simp only at h
        obtain ⟨tc, w, rfl, hc, hw, hq⟩ := ih _ _ _ _ h
        exact ⟨t ++ tc, w, by simp, .misc hm hc, hw, hq⟩
      | @stop name' w _ hq hw =>
        simp only at h
        cases h
        exact ⟨[], w, by simp, .nil, hw, hq⟩
      | @start tt name' _ as e htag =>
        cases e with
        | true =>
          simp only at h
          cases hk : readContent N fuel q with
          | error e => rw [hk] at h; cases h
          | ok p =>
            obtain ⟨kids', stop, r'⟩ := p
            rw [hk] at h
            cases h
            obtain ⟨tc, w, rfl, hc, hw, hq⟩ := ih _ _ _ _ hk
            exact ⟨'<' :: (tt ++ c!"/>") ++ tc, w, by simp [tagEnd], .element (.empty htag ((localPart_iff _ _).2 rfl)) hc, hw, hq⟩
        | false =>
          simp only at h
          cases hi : readContent N fuel q with
          | error e => rw [hi] at h; cases h
          | ok p =>
            obtain ⟨inner, name'', q'⟩ := p
            rw [hi] at h
            simp only at h
            split at h
            · cases h
            · rename_i hnm
              have hnm := Classical.not_not.mp hnm
              subst hnm
              cases hk : readContent N fuel q' with
              | error e => rw [hk] at h; cases h
              | ok p =>
                obtain ⟨kids', stop, r'⟩ := p
                rw [hk] at h
                cases h
                obtain ⟨tc1, w1, rfl, hc1, hw1, hq1⟩ := ih _ _ _ _ hi
                obtain ⟨tc, w, rfl, hc, hw, hq⟩ := ih _ _ _ _ hk
                exact ⟨'<' :: (tt ++ '>' :: (tc1 ++ c!"</" ++ name'' ++ w1 ++ ['>'])) ++ tc, w, by simp [tagEnd],
                  .element (.full htag ((localPart_iff _ _).2 rfl) hc1 hw1) hc, hw, hq⟩

theorem token_at {N : XmlNames} {tok : Token} {t r : Str} (h : TokenText N tok t r) : readToken N (t ++ r) = .ok (tok, r) :=
  readToken_iff.2 ⟨t, rfl, h⟩

theorem readContent_complete {N : XmlNames} : ∀ (fuel : Nat) (tc : Str) (kids : List Xml) (name w r : Str), Spec.XmlText.Content N tc kids →
    tc.length < fuel → Blanks w → QName N name →
    readContent N fuel (tc ++ c!"</" ++ name ++ w ++ ['>'] ++ r) = .ok (kids, name, r) := by
  intro fuel
  induction fuel with
  | zero => intro tc kids name w r _ h; omega
  | succ fuel ih =>
    intro tc kids name w r hc hf hw hq
    cases hc with
    | nil =>
      have := token_at (r := r) (TokenText.stop hq hw)
      unfold readContent
      rw [List.nil_append, this]
    | @text t s q kids ht hne hr h =>
      have hl : 0 < t.length := List.length_pos_iff.mpr hne
      have hk := ih q kids name w r h (by simp at hf; omega) hw hq
      have htok := token_at (N := N) (r := q ++ c!"</" ++ name ++ w ++ ['>'] ++ r) (TokenText.plain ht hne (by
        rcases hr with rfl | ⟨p, rfl⟩
        · exact .inr ⟨'/' :: (name ++ w ++ ['>'] ++ r), by simp⟩
        · exact .inr ⟨p ++ c!"</" ++ name ++ w ++ ['>'] ++ r, by simp⟩))
      have e : t ++ q ++ c!"</" ++ name ++ w ++ ['>'] ++ r = t ++ (q ++ c!"</" ++ name ++ w ++ ['>'] ++ r) := by simp
      unfold readContent
      rw [e]
      simp only [htok, hk]
    | @cdata t s q kids ht h =>
      have hl := tokenText_ne (N := N) (r := []) (TokenText.cdata ht)
      have hk := ih q kids name w r h (by simp at hf; omega) hw hq
      have htok := token_at (N := N) (r := q ++ c!"</" ++ name ++ w ++ ['>'] ++ r) (TokenText.cdata ht)
      have e : t ++ q ++ c!"</" ++ name ++ w ++ ['>'] ++ r = t ++ (q ++ c!"</" ++ name ++ w ++ ['>'] ++ r) := by simp
      unfold readContent
      rw [e]
      simp only [htok, hk]
    | @misc t q kids ht h =>
      have hl := tokenText_ne (N := N) (r := []) (TokenText.other ht)
      have hk := ih q kids name w r h (by simp at hf; omega) hw hq
      have htok := token_at (N := N) (r := q ++ c!"</" ++ name ++ w ++ ['>'] ++ r) (TokenText.other ht)
      have e : t ++ q ++ c!"</" ++ name ++ w ++ ['>'] ++ r = t ++ (q ++ c!"</" ++ name ++ w ++ ['>'] ++ r) := by simp
      unfold readContent
      rw [e]
      simp only [htok, hk]
    | @element t q x kids ht h =>
      cases ht with
      | @empty t name' l as htag hl =>
        have hk := ih q kids name w r h (by simp at hf; omega) hw hq
        have htok := token_at (N := N) (r := q ++ c!"</" ++ name ++ w ++ ['>'] ++ r) (TokenText.start (e := true) htag)
        have e : '<' :: (t ++ c!"/>") ++ q ++ c!"</" ++ name ++ w ++ ['>'] ++ r =
            '<' :: (t ++ tagEnd true) ++ (q ++ c!"</" ++ name ++ w ++ ['>'] ++ r) := by simp [tagEnd]
        unfold readContent
        rw [e]
        simp only [htok, hk]
        rw [(localPart_iff _ _).1 hl]
      | @full t name' l tc1 w1 as inner htag hl hc1 hw1 =>
        have hq' : QName N name' := by obtain ⟨_, _, _, hq', _⟩ := htag; exact hq'
        have hk := ih q kids name w r h (by simp at hf; omega) hw hq
        have hi := ih tc1 inner name' w1 (q ++ c!"</" ++ name ++ w ++ ['>'] ++ r) hc1 (by simp at hf; omega) hw1 hq'
        have htok := token_at (N := N) (r := tc1 ++ c!"</" ++ name' ++ w1 ++ ['>'] ++ (q ++ c!"</" ++ name ++ w ++ ['>'] ++ r))
          (TokenText.start (e := false) htag)
        have e : '<' :: (t ++ '>' :: (tc1 ++ c!"</" ++ name' ++ w1 ++ ['>'])) ++ q ++ c!"</" ++ name ++ w ++ ['>'] ++ r =
            '<' :: (t ++ tagEnd false) ++ (tc1 ++ c!"</" ++ name' ++ w1 ++ ['>'] ++ (q ++ c!"</" ++ name ++ w ++ ['>'] ++ r)) := by
          simp [tagEnd]
        unfold readContent
        rw [e]
        simp only [htok, hi, hk]
        rw [if_neg (by simp), (localPart_iff _ _).1 hl]

/-! ### documents -/

theorem parseFrom_sound {N : XmlNames} : ∀ (fuel : Nat) (s : Str) (x : Xml), parseFrom N fuel s = .ok x → Document N s x := by
  intro fuel
  induction fuel with
  | zero => intro s x h; cases h
  | succ fuel ih =>
    intro s x h
    unfold parseFrom at h
    split at h
    · cases h
    · cases ht : readToken N s with
      | error e => rw [ht] at h; cases h
      | ok p =>
        obtain ⟨tok, q⟩ := p
        obtain ⟨t, rfl, htt⟩ := readToken_iff.1 ht
        rw [ht] at h
        cases htt with
        | @plain _ s' _ hcd hne hr =>
          obtain ⟨p, t', r, rfl, hp, hx⟩ := ih _ _ h
          refine ⟨t ++ p, t', r, by simp, .text hcd hne ?_ hp, hx⟩
          obtain ⟨a, rfl⟩ : ∃ a, t' = '<' :: a := by cases hx <;> exact ⟨_, rfl⟩
          exact content_head (N := N) (tc := p) (q := a ++ r) (by simp) hr
        | cdata hcd =>
          obtain ⟨p, t', r, rfl, hp, hx⟩ := ih _ _ h
          exact ⟨t ++ p, t', r, by simp, .cdata hcd hp, hx⟩
        | other hm =>
          obtain ⟨p, t', r, rfl, hp, hx⟩ := ih _ _ h
          exact ⟨t ++ p, t', r, by simp, .misc hm hp, hx⟩
        | stop hq hw => cases h
        | @start tt name _ as e htag =>
          cases e with
          | true =>
            cases h
            exact ⟨[], '<' :: (tt ++ c!"/>"), q, by simp [tagEnd], .nil, .empty htag ((localPart_iff _ _).2 rfl)⟩
          | false =>
            simp only at h
            cases hi : readContent N (q.length + 1) q with
            | error e => rw [hi] at h; cases h
            | ok p =>
              obtain ⟨inner, name', r⟩ := p
              rw [hi] at h
              simp only at h
              split at h
              · cases h
              · rename_i hnm
                have hnm := Classical.not_not.mp hnm
                subst hnm
                cases h
                obtain ⟨tc, w, rfl, hc, hw, hq⟩ := readContent_sound _ _ _ _ _ hi
                exact ⟨[], '<' :: (tt ++ '>' :: (tc ++ c!"</" ++ name' ++ w ++ ['>'])), r, by simp [tagEnd], .nil,
                  .full htag ((localPart_iff _ _).2 rfl) hc hw⟩

theorem parseFrom_element {N : XmlNames} {t r : Str} {x : Xml} (h : Element N t x) (fuel : Nat) :
    parseFrom N (fuel + 1) (t ++ r) = .ok x := by
  cases h with
  | @empty t name l as htag hl =>
    have htok := token_at (N := N) (r := r) (TokenText.start (e := true) htag)
    have e : '<' :: (t ++ c!"/>") ++ r = '<' :: (t ++ tagEnd true) ++ r := by simp [tagEnd]
    unfold parseFrom
    rw [if_neg (by simp), e]
    simp only [htok]
    rw [(localPart_iff _ _).1 hl]
  | @full t name l tc w as kids htag hl hc hw =>
    have hq : QName N name := by obtain ⟨_, _, _, hq, _⟩ := htag; exact hq
    have htok := token_at (N := N) (r := tc ++ c!"</" ++ name ++ w ++ ['>'] ++ r) (TokenText.start (e := false) htag)
    have hk := readContent_complete ((tc ++ c!"</" ++ name ++ w ++ ['>'] ++ r).length + 1) tc kids name w r hc (by simp; omega) hw hq
    have e : '<' :: (t ++ '>' :: (tc ++ c!"</" ++ name ++ w ++ ['>'])) ++ r =
        '<' :: (t ++ tagEnd false) ++ (tc ++ c!"</" ++ name ++ w ++ ['>'] ++ r) := by simp [tagEnd]
    unfold parseFrom
    rw [if_neg (by simp), e]
    simp only [htok, hk]
    rw [if_neg (by simp), (localPart_iff _ _).1 hl]

theorem parseFrom_complete {N : XmlNames} {p : Str} (hp : Prolog N p) : ∀ (fuel : Nat) (t r : Str) (x : Xml), p.length < fuel →
    Element N t x → parseFrom N fuel (p ++ t ++ r) = .ok x := by
  induction hp with
  | nil =>
    intro fuel t r x hf h
    obtain ⟨fuel, rfl⟩ : ∃ f, fuel = f + 1 := ⟨fuel - 1, by simp at hf; omega⟩
    exact parseFrom_element h fuel
  | @text tp s q ht hne hr h ih =>
    intro fuel t r x hf hx
    obtain ⟨fuel, rfl⟩ : ∃ f, fuel = f + 1 := ⟨fuel - 1, by omega⟩
    have hl : 0 < tp.length := List.length_pos_iff.mpr hne
    have hk := ih fuel t r x (by simp at hf; omega) hx
    have htok := token_at (N := N) (r := q ++ t ++ r) (TokenText.plain ht hne (by
      obtain ⟨a, rfl⟩ : ∃ a, t = '<' :: a := by cases hx <;> exact ⟨_, rfl⟩
      rcases hr with rfl | ⟨p, rfl⟩
      · exact .inr ⟨a ++ r, by simp⟩
      · exact .inr ⟨p ++ '<' :: a ++ r, by simp⟩))
    have e : tp ++ q ++ t ++ r = tp ++ (q ++ t ++ r) := by simp
    unfold parseFrom
    rw [if_neg (by cases tp <;> simp at hne ⊢), e]
    simp only [htok, hk]
  | @cdata tp s q ht h ih =>
    intro fuel t r x hf hx
    obtain ⟨fuel, rfl⟩ : ∃ f, fuel = f + 1 := ⟨fuel - 1, by omega⟩
    have hl := tokenText_ne (N := N) (r := []) (TokenText.cdata ht)
    have hk := ih fuel t r x (by simp at hf; omega) hx
    have htok := token_at (N := N) (r := q ++ t ++ r) (TokenText.cdata ht)
    have e : tp ++ q ++ t ++ r = tp ++ (q ++ t ++ r) := by simp
    unfold parseFrom
    rw [if_neg (by cases tp <;> simp at hl ⊢), e]
    simp only [htok, hk]
  | @misc tp q ht h ih =>
    intro fuel t r x hf hx
    obtain ⟨fuel, rfl⟩ : ∃ f, fuel = f + 1 := ⟨fuel - 1, by omega⟩
    have hl := tokenText_ne (N := N) (r := []) (TokenText.other ht)
    have hk := ih fuel t r x (by simp at hf; omega) hx
    have htok := token_at (N := N) (r := q ++ t ++ r) (TokenText.other ht)
    have e : tp ++ q ++ t ++ r = tp ++ (q ++ t ++ r) := by simp
    unfold parseFrom
    rw [if_neg (by cases tp <;> simp at hl ⊢), e]
    simp only [htok, hk]

/-- The reader takes exactly the documents, with their root elements. -/
theorem parse_iff {N : XmlNames} {s : Str} {x : Xml} : parse N s = .ok x ↔ Document N s x := by
  constructor
  · exact parseFrom_sound _ _ _
  · rintro ⟨p, t, r, rfl, hp, hx⟩
    exact parseFrom_complete hp _ t r x (by simp; omega) hx

/-- A text is a document with at most one root element. -/
theorem document_unique {N : XmlNames} {s : Str} {x y : Xml} (h : Document N s x) (h' : Document N s y) : x = y := by
  rw [← parse_iff] at h h'
  rw [h] at h'
  cases h'
  rfl

end Rtcg.XmlProofs
