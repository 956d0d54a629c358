import Verif.Spec.Gen
import Mathlib.Data.List.Infix

namespace Rtcg

open Spec

theorem replaceAllFrom_skip (old new : Str) (k : Nat) (s : Str) :
    replaceAllFrom old new k s = replaceAllFrom old new 0 (s.drop k) := by
  induction s generalizing k with
  | nil => cases k <;> simp [replaceAllFrom]
  | cons c cs ih =>
    cases k with
    | zero => rfl
    | succ k => rw [replaceAllFrom, ih]; rfl

/-- The first occurrence, if any. -/
theorem replace_first (old new : Str) (ho : old ≠ []) (s : Str) :
    (¬ old <:+: s ∧ replaceAll s old new = s) ∨
    ∃ seg rest, s = seg ++ old ++ rest ∧ ¬ old <:+: seg ∧ replaceAll s old new = seg ++ new ++ replaceAll rest old new := by
  unfold replaceAll
  induction s with
  | nil => left; exact ⟨by simpa using ho, rfl⟩
  | cons c cs ih =>
    rw [replaceAllFrom]
    by_cases hp : old.isPrefixOf (c :: cs) = true
    · right
      rw [if_pos hp]
      obtain ⟨rest, hrest⟩ := List.isPrefixOf_iff_prefix.1 hp
      refine ⟨[], rest, by simp [hrest], by simpa using ho, ?_⟩
      rw [replaceAllFrom_skip, List.nil_append]
      congr 2
      have e : cs.drop (old.length - 1) = (c :: cs).drop old.length := by
        obtain ⟨a, b, rfl⟩ := List.exists_cons_of_ne_nil ho
        simp
      rw [e, ← hrest, List.drop_left]
    · rw [if_neg hp]
      have hp' : ¬ old <+: c :: cs := fun h => hp (List.isPrefixOf_iff_prefix.2 h)
      rcases ih with ⟨h1, h2⟩ | ⟨seg, rest, h1, h2, h3⟩
      · left
        refine ⟨?_, by rw [h2]⟩
        rw [List.infix_cons_iff]
        exact fun h => h.elim hp' h1
      · right
        refine ⟨c :: seg, rest, by simp [h1], ?_, by rw [h3]; simp⟩
        rw [List.infix_cons_iff]
        rintro (h | h)
        · apply hp'
          rw [h1]
          refine h.trans ?_
          rw [List.append_assoc, ← List.cons_append]
          exact List.prefix_append _ _
        · exact h2 h

theorem intercalate_cons_ne (sep a : Str) (l : List Str) (hl : l ≠ []) :
    List.intercalate sep (a :: l) = a ++ sep ++ List.intercalate sep l := by
  obtain ⟨b, l', rfl⟩ := List.exists_cons_of_ne_nil hl
  simp [List.intercalate_cons_cons]

theorem replaceAll_replaced (old new : Str) (ho : old ≠ []) (s : Str) : Replaced s old new (replaceAll s old new) := by
  suffices h : ∃ segs : List Str, segs ≠ [] ∧ s = List.intercalate old segs ∧ (∀ seg ∈ segs, ¬ old <:+: seg) ∧
      replaceAll s old new = List.intercalate new segs by
    obtain ⟨segs, _, h⟩ := h; exact ⟨segs, h⟩
  have key : ∀ n, ∀ s : Str, s.length ≤ n → ∃ segs : List Str, segs ≠ [] ∧ s = List.intercalate old segs ∧
      (∀ seg ∈ segs, ¬ old <:+: seg) ∧ replaceAll s old new = List.intercalate new segs := by
    intro n
    induction n with
    | zero =>
      intro s hs
      have : s = [] := List.length_eq_zero_iff.1 (by omega)
      subst this
      exact ⟨[[]], by simp, by simp, by simpa using ho, by simp [replaceAll, replaceAllFrom]⟩
    | succ n ih =>
      intro s hs
      rcases replace_first old new ho s with ⟨h1, h2⟩ | ⟨seg, rest, h1, h2, h3⟩
      · exact ⟨[s], by simp, by simp, by simpa using h1, by simp [h2]⟩
      · have hlen : rest.length ≤ n := by
          have := List.length_pos_iff.2 ho
          rw [h1] at hs
          simp at hs; omega
        obtain ⟨segs, a1, a2, a3, a4⟩ := ih rest hlen
        refine ⟨seg :: segs, by simp, ?_, ?_, ?_⟩
        · rw [intercalate_cons_ne _ _ _ a1, ← a2, h1]
        · intro x hx
          rcases List.mem_cons.1 hx with rfl | hx
          · exact h2
          · exact a3 x hx
        · rw [intercalate_cons_ne _ _ _ a1, ← a4, h3]
  exact key _ s (Nat.le_refl _)

/-- A prefix of an append reaches into the second part or not. -/
theorem prefix_append_cases {α : Type} {p x y : List α} (h : p <+: x ++ y) : p <+: x ∨ ∃ q, p = x ++ q ∧ q <+: y := by
  rcases List.prefix_or_prefix_of_prefix h (List.prefix_append x y) with h' | ⟨q, rfl⟩
  · exact Or.inl h'
  · exact Or.inr ⟨q, rfl, (List.prefix_append_right_inj x).1 h⟩

/-- The placeholder starts with a character that does not occur in it again. -/
theorem placeholder_no_overlap {seg rest : Str} (hs : ¬ placeholder <:+: seg) (hne : seg ≠ []) :
    ¬ placeholder <+: seg ++ (placeholder ++ rest) := by
  intro h
  rcases prefix_append_cases h with h | ⟨q, hq, hq'⟩
  · exact hs h.isInfix
  · obtain ⟨c, cs, rfl⟩ := List.exists_cons_of_ne_nil hne
    cases q with
    | nil => exact hs (by rw [hq]; simp)
    | cons d q =>
      have hd : d = '$' := by
        obtain ⟨z, hz⟩ := hq'
        simp at hz; exact hz.1
      subst hd
      have : '$' ∈ (c!"{NAME}" : Str) := by
        have e : (c!"{NAME}" : Str) = cs ++ '$' :: q := by
          have := congrArg List.tail hq
          simpa using this
        rw [e]; simp
      revert this; decide

theorem replaceAll_seg (new seg rest : Str) (hs : ¬ placeholder <:+: seg) :
    replaceAll (seg ++ (placeholder ++ rest)) placeholder new = seg ++ (new ++ replaceAll rest placeholder new) := by
  induction seg with
  | nil =>
    have : replaceAll (placeholder ++ rest) placeholder new = new ++ replaceAllFrom placeholder new 6 (c!"{NAME}" ++ rest) := by
      unfold replaceAll
      show replaceAllFrom placeholder new 0 ('$' :: (c!"{NAME}" ++ rest)) = _
      rw [replaceAllFrom, if_pos]
      · rfl
      · exact List.isPrefixOf_iff_prefix.2 ⟨rest, rfl⟩
    rw [List.nil_append, this, replaceAllFrom_skip]
    rfl
  | cons c cs ih =>
    have hn := placeholder_no_overlap (rest := rest) hs (by simp)
    unfold replaceAll at ih ⊢
    rw [List.cons_append, replaceAllFrom, if_neg, ih, List.cons_append]
    · intro h; exact hs (List.infix_cons_iff.2 (Or.inr h))
    · intro h
      exact hn (List.isPrefixOf_iff_prefix.1 h)

theorem replaceAll_none (new s : Str) (hs : ¬ placeholder <:+: s) : replaceAll s placeholder new = s := by
  rcases replace_first placeholder new (by simp) s with ⟨_, h⟩ | ⟨seg, rest, h, _⟩
  · exact h
  · exact absurd ⟨seg, rest, h.symm⟩ hs

theorem replaced_unique {s new r : Str} (h : Replaced s placeholder new r) : r = replaceAll s placeholder new := by
  obtain ⟨segs, h1, h2, h3⟩ := h
  subst h1 h3
  induction segs with
  | nil => simp [replaceAll, replaceAllFrom]
  | cons a l ih =>
    by_cases hl : l = []
    · subst hl
      simp only [List.intercalate_singleton]
      exact (replaceAll_none new a (h2 a (by simp))).symm
    · rw [intercalate_cons_ne _ _ _ hl, intercalate_cons_ne _ _ _ hl, List.append_assoc, List.append_assoc,
        replaceAll_seg new a _ (h2 a (by simp)), ih (fun x hx => h2 x (by simp [hx]))]

theorem infix_append_cases {α : Type} {p x y : List α} (h : p <:+: x ++ y) :
    p <:+: x ∨ p <:+: y ∨ ∃ a b, p = a ++ b ∧ a ≠ [] ∧ b ≠ [] ∧ a <:+ x ∧ b <+: y := by
  induction x with
  | nil => exact Or.inr (Or.inl h)
  | cons c x ih =>
    rw [List.cons_append, List.infix_cons_iff] at h
    rcases h with h | h
    · rw [← List.cons_append] at h
      rcases prefix_append_cases h with h | ⟨q, rfl, hq⟩
      · exact Or.inl h.isInfix
      · by_cases hqe : q = []
        · subst hqe; left; simp
        · exact Or.inr (Or.inr ⟨c :: x, q, rfl, by simp, hqe, List.suffix_refl _, hq⟩)
    · rcases ih h with h | h | ⟨a, b, h1, h2, h3, h4, h5⟩
      · exact Or.inl (List.infix_cons_iff.2 (Or.inr h))
      · exact Or.inr (Or.inl h)
      · exact Or.inr (Or.inr ⟨a, b, h1, h2, h3, h4.trans (List.suffix_cons _ _), h5⟩)

/-- No placeholder comes about when gluing with a text that cannot be part of one. -/
theorem no_placeholder_intercalate (name : Str) (h1 : '$' ∉ name) (h2 : '}' ∉ name) (h3 : ¬ name <:+: placeholder) (segs : List Str)
    (hs : ∀ seg ∈ segs, ¬ placeholder <:+: seg) : ¬ placeholder <:+: List.intercalate name segs := by
  -- a non-empty prefix of the placeholder contains `$`, a non-empty suffix `}`
  have hpre : ∀ a b : Str, placeholder = a ++ b → a ≠ [] → '$' ∈ a := by
    intro a b hab ha
    obtain ⟨c, cs, rfl⟩ := List.exists_cons_of_ne_nil ha
    have : c = '$' := by simp at hab; exact hab.1.symm
    simp [this]
  have hsuf : ∀ a b : Str, placeholder = a ++ b → b ≠ [] → '}' ∈ b := by
    intro a b hab hb
    have h := congrArg List.getLast? hab
    rw [List.getLast?_append_of_ne_nil _ hb] at h
    have h' : (placeholder).getLast? = some '}' := by decide
    rw [h'] at h
    exact List.mem_of_getLast? h.symm
  induction segs with
  | nil => simp
  | cons a l ih =>
    by_cases hl : l = []
    · subst hl; simpa using hs a (by simp)
    · rw [intercalate_cons_ne _ _ _ hl, List.append_assoc]
      intro h
      rcases infix_append_cases h with h | h | ⟨p, q, e1, _, e3, _, e5⟩
      · exact hs a (by simp) h
      · rcases infix_append_cases h with h | h | ⟨p, q, e1, e2, _, e4, _⟩
        · exact h1 (h.subset (by decide))
        · exact ih (fun x hx => hs x (by simp [hx])) h
        · exact h1 (e4.subset (hpre p q e1 e2))
      · rcases prefix_append_cases e5 with h | ⟨q', rfl, _⟩
        · exact h2 (h.subset (hsuf p q e1 e3))
        · exact h3 ⟨p, q', by rw [e1, List.append_assoc]⟩

end Rtcg
