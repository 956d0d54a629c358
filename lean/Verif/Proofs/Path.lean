import Verif.Spec.Fs
import Mathlib.Data.List.Infix

/-
Facts about the path model.
-/

namespace Rtcg

open Spec

theorem splitSlash_ne_nil (p : Str) : splitSlash p ≠ [] := by
  induction p with
  | nil => simp [splitSlash]
  | cons c cs ih =>
    unfold splitSlash
    split
    · simp
    · split <;> simp

theorem splitSlash_append (a b : Str) : splitSlash (a ++ '/' :: b) = splitSlash a ++ splitSlash b := by
  induction a with
  | nil => simp [splitSlash]
  | cons c cs ih =>
    simp only [List.cons_append]
    rw [splitSlash, ih]
    conv => rhs; rw [splitSlash]
    split
    · simp
    · cases h : splitSlash cs with
      | nil => exact absurd h (splitSlash_ne_nil cs)
      | cons s ss => simp

theorem splitSlash_plain {c : Str} (h : '/' ∉ c) : splitSlash c = [c] := by
  induction c with
  | nil => rfl
  | cons d ds ih =>
    simp only [List.mem_cons, not_or] at h
    rw [splitSlash, if_neg (Ne.symm h.1), ih h.2]

theorem splitSlash_noSlash (p : Str) : ∀ c ∈ splitSlash p, '/' ∉ c := by
  induction p with
  | nil => simp [splitSlash]
  | cons d ds ih =>
    rw [splitSlash]
    split
    · intro c hc
      rcases List.mem_cons.1 hc with rfl | hc
      · simp
      · exact ih c hc
    · rename_i hd
      cases h : splitSlash ds with
      | nil => exact absurd h (splitSlash_ne_nil ds)
      | cons s ss =>
        rw [h] at ih
        intro c hc
        rcases List.mem_cons.1 hc with rfl | hc
        · simp only [List.mem_cons, not_or]
          exact ⟨Ne.symm hd, ih s (by simp)⟩
        · exact ih c (by simp [hc])

/-- Normal forms: `..` only at the start of a relative path, otherwise plain components. -/
def NPath.Normal (n : NPath) : Prop :=
  ∃ k rest, n.comps = List.replicate k c!".." ++ rest ∧ (∀ c ∈ rest, Plain c) ∧ (n.rooted = true → k = 0)

theorem cleanStep_normal (r : Bool) (out : List Str) (c : Str) (hc : '/' ∉ c) (h : NPath.Normal ⟨r, out⟩) :
    NPath.Normal ⟨r, cleanStep r out c⟩ := by
  obtain ⟨k, rest, he, hp, hr⟩ := h
  simp only at he hr
  unfold cleanStep
  by_cases h1 : c = [] ∨ c = c!"."
  · rw [if_pos h1]; exact ⟨k, rest, he, hp, hr⟩
  rw [if_neg h1]
  push Not at h1
  by_cases h2 : c = c!".."
  · rw [if_pos h2]
    rcases List.eq_nil_or_concat rest with rfl | ⟨rest', l, rfl⟩
    · rw [List.append_nil] at he
      subst he
      cases k with
      | zero =>
        cases r
        · exact ⟨1, [], by simp⟩
        · exact ⟨0, [], by simp⟩
      | succ k =>
        have : (List.replicate (k+1) c!"..").getLast? = some c!".." := by
          simp [List.getLast?_replicate]
        rw [this]
        simp only [if_true]
        refine ⟨k + 2, [], ?_, by simp, by simpa using hr⟩
        simp only [List.append_nil]
        rw [List.replicate_succ' (n := k + 1)]
    · have hl := hp l (by simp)
      rw [he]
      simp only [List.concat_eq_append, ← List.append_assoc, List.getLast?_append, List.getLast?_singleton, Option.some_or]
      rw [if_neg hl.2.2.2]
      refine ⟨k, rest', by simp, fun c hc => hp c (by simp [hc]), hr⟩
  · rw [if_neg h2]
    refine ⟨k, rest ++ [c], by simp [he], ?_, hr⟩
    intro d hd
    rcases List.mem_append.1 hd with hd | hd
    · exact hp d hd
    · rw [List.mem_singleton.1 hd]
      exact ⟨h1.1, hc, h1.2, h2⟩

theorem cleanSteps_normal (r : Bool) (cs : List Str) (hc : ∀ c ∈ cs, '/' ∉ c) (out : List Str) (h : NPath.Normal ⟨r, out⟩) :
    NPath.Normal ⟨r, cs.foldl (cleanStep r) out⟩ := by
  induction cs generalizing out with
  | nil => exact h
  | cons c cs ih =>
    exact ih (fun d hd => hc d (by simp [hd])) _ (cleanStep_normal r out c (hc c (by simp)) h)

theorem normPath_normal (p : Str) : (normPath p).Normal :=
  cleanSteps_normal _ _ (splitSlash_noSlash p) _ ⟨0, [], by simp⟩

theorem cleanStep_plain (r : Bool) (out : List Str) {c : Str} (h : Plain c) : cleanStep r out c = out ++ [c] := by
  unfold cleanStep
  rw [if_neg (by rintro (h' | h'); exacts [h.1 h', h.2.2.1 h']), if_neg h.2.2.2]

theorem cleanSteps_plain (r : Bool) (cs : List Str) (h : ∀ c ∈ cs, Plain c) (out : List Str) :
    cs.foldl (cleanStep r) out = out ++ cs := by
  induction cs generalizing out with
  | nil => simp
  | cons c cs ih =>
    rw [List.foldl_cons, cleanStep_plain r out (h c (by simp)), ih (fun d hd => h d (by simp [hd]))]
    simp

theorem cleanSteps_dotdots (k : Nat) : ∀ j, (List.replicate k c!"..").foldl (cleanStep false) (List.replicate j c!"..") =
    List.replicate (j + k) c!".." := by
  induction k with
  | zero => simp
  | succ k ih =>
    intro j
    rw [List.replicate_succ, List.foldl_cons]
    have : cleanStep false (List.replicate j c!"..") c!".." = List.replicate (j + 1) c!".." := by
      cases j with
      | zero => rfl
      | succ j =>
        unfold cleanStep
        rw [if_neg (by decide), if_pos rfl]
        have : (List.replicate (j+1) c!"..").getLast? = some c!".." := by simp [List.getLast?_replicate]
        rw [this]
        simp only [if_true]
        rw [← List.replicate_succ']
    rw [this, ih]
    congr 1; omega

theorem splitSlash_intercalate (cs : List Str) (hne : cs ≠ []) (h : ∀ c ∈ cs, '/' ∉ c) :
    splitSlash (List.intercalate c!"/" cs) = cs := by
  induction cs with
  | nil => exact absurd rfl hne
  | cons c cs ih =>
    cases cs with
    | nil => simpa using splitSlash_plain (h c (by simp))
    | cons d ds =>
      rw [List.intercalate_cons_cons]
      rw [List.append_assoc]
      have := splitSlash_append c (List.intercalate c!"/" (d :: ds))
      simp only [List.singleton_append]
      rw [this, ih (by simp) (fun e he => h e (by simp [he])), splitSlash_plain (h c (by simp))]
      rfl

theorem normal_noSlash {n : NPath} (h : n.Normal) : ∀ c ∈ n.comps, '/' ∉ c ∧ c ≠ [] := by
  obtain ⟨k, rest, he, hp, _⟩ := h
  intro c hc
  rw [he] at hc
  rcases List.mem_append.1 hc with hc | hc
  · rw [List.eq_of_mem_replicate hc]; decide
  · exact ⟨(hp c hc).2.1, (hp c hc).1⟩

theorem foldl_normal {n : NPath} (h : n.Normal) : n.comps.foldl (cleanStep n.rooted) [] = n.comps := by
  obtain ⟨k, rest, he, hp, hr⟩ := h
  rw [he, List.foldl_append, cleanSteps_plain _ _ hp]
  congr 1
  cases hn : n.rooted with
  | true => rw [hr hn]; rfl
  | false => simpa using cleanSteps_dotdots k 0

theorem intercalate_head (cs : List Str) (h : ∀ c ∈ cs, '/' ∉ c ∧ c ≠ []) : isRooted (List.intercalate c!"/" cs) = false := by
  cases cs with
  | nil => rfl
  | cons c cs =>
    obtain ⟨hc, hne⟩ := h c (by simp)
    cases c with
    | nil => exact absurd rfl hne
    | cons x xs =>
      have : (List.intercalate c!"/" ((x :: xs) :: cs)).head? = some x := by
        cases cs with
        | nil => simp
        | cons d ds => rw [List.intercalate_cons_cons]; rfl
      unfold isRooted
      rw [this]
      simp only [List.mem_cons, not_or] at hc
      simp [Ne.symm hc.1]

/-- The normal form of a rendered normal form is itself: `filepath.Clean` keeps what it yields. -/
theorem normPath_render {n : NPath} (h : n.Normal) : normPath n.render = n := by
  have hs := normal_noSlash h
  have hf := foldl_normal h
  obtain ⟨r, comps⟩ := n
  simp only at hs hf
  cases r with
  | true =>
    simp only [NPath.render, if_true, normPath]
    have hr : isRooted ('/' :: List.intercalate c!"/" comps) = true := by simp [isRooted]
    rw [hr]
    congr 1
    by_cases hc : comps = []
    · subst hc; rfl
    · rw [splitSlash, if_pos rfl, List.foldl_cons, splitSlash_intercalate comps hc (fun c hc => (hs c hc).1)]
      exact hf
  | false =>
    by_cases hc : comps = []
    · subst hc; rfl
    · simp only [NPath.render, normPath]
      simp only [Bool.false_eq_true, if_false]
      rw [if_neg hc, intercalate_head comps hs, splitSlash_intercalate comps hc (fun c hc => (hs c hc).1)]
      rw [hf]

theorem normPath_cleanPath (p : Str) : normPath (cleanPath p) = normPath p := normPath_render (normPath_normal p)

theorem normPath_comps (p : Str) : (normPath p).comps = (splitSlash p).foldl (cleanStep (isRooted p)) [] := rfl

theorem isRooted_append {a : Str} (b : Str) (h : a ≠ []) : isRooted (a ++ b) = isRooted a := by
  cases a with
  | nil => exact absurd rfl h
  | cons x xs => simp [isRooted]

theorem foldl_intercalate (r : Bool) (es : List Str) (hne : es ≠ []) (out : List Str) :
    (splitSlash (List.intercalate c!"/" es)).foldl (cleanStep r) out = (es.flatMap splitSlash).foldl (cleanStep r) out := by
  induction es generalizing out with
  | nil => exact absurd rfl hne
  | cons e es ih =>
    cases es with
    | nil => simp
    | cons f fs =>
      rw [List.intercalate_cons_cons, List.append_assoc]
      have := splitSlash_append e (List.intercalate c!"/" (f :: fs))
      simp only [List.singleton_append]
      rw [this, List.foldl_append, ih (by simp), List.flatMap_cons (x := e), List.foldl_append]

theorem foldl_filter_empty (r : Bool) (es : List Str) (out : List Str) :
    ((es.filter (· ≠ [])).flatMap splitSlash).foldl (cleanStep r) out = (es.flatMap splitSlash).foldl (cleanStep r) out := by
  induction es generalizing out with
  | nil => rfl
  | cons e es ih =>
    by_cases h : e = []
    · subst h
      have : List.filter (fun x => decide (x ≠ [])) (([] : Str) :: es) = List.filter (fun x => decide (x ≠ [])) es := by simp
      rw [this, ih]
      simp [splitSlash, cleanStep]
    · have : List.filter (fun x => decide (x ≠ [])) (e :: es) = e :: List.filter (fun x => decide (x ≠ [])) es := by simp [h]
      rw [this, List.flatMap_cons, List.flatMap_cons, List.foldl_append, List.foldl_append, ih]

theorem isRooted_intercalate (e : Str) (es : List Str) (h : e ≠ []) : isRooted (List.intercalate c!"/" (e :: es)) = isRooted e := by
  cases es with
  | nil => simp
  | cons f fs => rw [List.intercalate_cons_cons, List.append_assoc]; exact isRooted_append _ h

/-- `filepath.Join` of a first element and relative ones: the components follow each other. -/
theorem normPath_join (a : Str) (bs : List Str) (hb : ∀ b ∈ bs, isRooted b = false) :
    normPath (joinPath (a :: bs)) = ⟨(normPath a).rooted, (bs.flatMap splitSlash).foldl (cleanStep (isRooted a)) (normPath a).comps⟩ := by
  have hall := foldl_filter_empty (isRooted a) (a :: bs) []
  have key : ∀ es, (a :: bs).filter (· ≠ []) = es → es ≠ [] → isRooted (List.intercalate c!"/" es) = isRooted a := by
    intro es hes hne
    by_cases ha : a = []
    · subst ha
      have hmem : ∀ e ∈ es, isRooted e = false := by
        intro e he
        rw [← hes] at he
        have := List.mem_filter.1 he
        rcases List.mem_cons.1 this.1 with rfl | hm
        · rfl
        · exact hb e hm
      cases es with
      | nil => exact absurd rfl hne
      | cons e es =>
        have he0 : e ≠ [] := by
          have : e ∈ ([] :: bs).filter (· ≠ []) := by rw [hes]; simp
          simpa using (List.mem_filter.1 this).2
        rw [isRooted_intercalate e es he0, hmem e (by simp)]
        rfl
    · rw [List.filter_cons, if_pos (by simpa using ha)] at hes
      subst hes
      exact isRooted_intercalate _ _ ha
  have hroot : (normPath a).rooted = isRooted a := rfl
  unfold joinPath
  cases hes : (a :: bs).filter (· ≠ []) with
  | nil =>
    rw [hes] at hall
    simp only
    have ha : a = [] := by
      by_contra ha
      have : a ∈ (a :: bs).filter (· ≠ []) := by simp [ha]
      rw [hes] at this; simp at this
    subst ha
    have : normPath [] = ⟨isRooted [], []⟩ := rfl
    rw [this]
    congr 1
  | cons e es =>
    simp only
    rw [normPath_cleanPath]
    unfold normPath
    rw [key _ hes (by simp), foldl_intercalate _ _ (by simp), ← hes, hall, List.flatMap_cons, List.foldl_append]

theorem Spec.Plain.relative {c : Str} (h : Plain c) : isRooted c = false := by
  unfold isRooted
  obtain ⟨h1, h2, _⟩ := h
  cases c with
  | nil => rfl
  | cons x xs =>
    simp only [List.mem_cons, not_or] at h2
    simp [Ne.symm h2.1]

theorem normPath_join_plain (a : Str) (bs : List Str) (hb : ∀ b ∈ bs, Plain b) :
    normPath (joinPath (a :: bs)) = ⟨(normPath a).rooted, (normPath a).comps ++ bs⟩ := by
  rw [normPath_join a bs (fun b h => (hb b h).relative)]
  have : bs.flatMap splitSlash = bs := by
    clear a
    induction bs with
    | nil => rfl
    | cons b bs ih =>
      rw [List.flatMap_cons, splitSlash_plain (hb b (by simp)).2.1, ih (fun c hc => hb c (by simp [hc]))]
      rfl
  rw [this, cleanSteps_plain _ _ hb]

/-- Joining plain components moves down from where the first path leads. -/
theorem locate_join (cwd : Loc) (a : Str) (bs : List Str) (hb : ∀ b ∈ bs, Plain b) :
    locate cwd (joinPath (a :: bs)) = locate cwd a ++ bs := by
  unfold locate
  rw [normPath_join_plain a bs hb]
  cases (normPath a).rooted with
  | true => rfl
  | false => simp only [Bool.false_eq_true, if_false, List.foldl_append, cleanSteps_plain _ _ hb]

theorem locate_cleanPath (cwd : Loc) (p : Str) : locate cwd (cleanPath p) = locate cwd p := by
  unfold locate; rw [normPath_cleanPath]

end Rtcg
