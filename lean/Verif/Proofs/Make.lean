import Verif.Spec.Make
import Verif.Model.Templates

namespace Rtcg.Spec.Make

open Rtcg Rtcg.Templates

theorem cut_clean {p : Char → Bool} : ∀ {a : Str}, (∀ c ∈ a, p c = false) → cut p a = [a]
  | [], _ => rfl
  | c :: cs, h => by
    have h1 := h c (by simp)
    have h2 := cut_clean (a := cs) (fun x hx => h x (by simp [hx]))
    simp [cut, h1, h2]

theorem cut_append {p : Char → Bool} {x : Char} (hx : p x = true) (r : Str) :
    ∀ {a : Str}, (∀ c ∈ a, p c = false) → cut p (a ++ x :: r) = a :: cut p r
  | [], _ => by simp [cut, hx]
  | c :: cs, h => by
    have h1 := h c (by simp)
    have h2 := cut_append hx r (a := cs) (fun y hy => h y (by simp [hy]))
    simp [cut, h1, h2]

theorem lines_flatMap : ∀ (ls : List Str), (∀ l ∈ ls, '\n' ∉ l) → lines (ls.flatMap (· ++ ['\n'])) = ls ++ [[]]
  | [], _ => rfl
  | l :: ls, h => by
    have ih := lines_flatMap ls (fun x hx => h x (by simp [hx]))
    have := cut_append (p := (· == '\n')) (x := '\n') (by simp) (ls.flatMap (· ++ ['\n'])) (a := l)
      (fun c hc => by simp; rintro rfl; exact h l (by simp) hc)
    simp only [lines] at ih ⊢
    simp only [List.flatMap_cons, List.append_assoc, List.singleton_append]
    rw [this, ih]; rfl

/-- A word as such: not empty, and without blanks. -/
def Word (w : Str) : Prop := w ≠ [] ∧ ∀ c ∈ w, c ≠ ' ' ∧ c ≠ '\t'

instance (w : Str) : Decidable (Word w) := inferInstanceAs (Decidable (_ ∧ _))

theorem words_nil : words [] = [] := rfl

theorem words_one {w : Str} (h : Word w) : words w = [w] := by
  unfold words
  rw [cut_clean (fun c hc => by simp [h.2 c hc])]
  simp [h.1]

theorem words_cons {w : Str} (h : Word w) (r : Str) : words (w ++ ' ' :: r) = w :: words r := by
  unfold words
  rw [cut_append (by simp) r (fun c hc => by simp [h.2 c hc])]
  simp [h.1]

theorem words_blank (r : Str) : words (' ' :: r) = words r := by
  unfold words
  have := cut_append (p := fun c => c == ' ' || c == '\t') (x := ' ') (by simp) r (a := []) (by simp)
  rw [List.nil_append] at this
  rw [this]; simp

/-- Words with a blank before each. -/
theorem words_spaced : ∀ (ws : List Str), (∀ w ∈ ws, Word w) → words (ws.flatMap (' ' :: ·)) = ws
  | [], _ => rfl
  | [w], h => by simp [words_blank, words_one (h w (by simp))]
  | w :: v :: ws, h => by
    have ih := words_spaced (v :: ws) (fun x hx => h x (by simp [hx]))
    simp only [List.flatMap_cons, List.cons_append] at ih ⊢
    rw [words_blank, words_cons (h w (by simp)), ← words_blank, ih]

theorem Safe.not_mem {k : Str} (h : Safe k) {c : Char} (hc : c ∈ special) : c ∉ k := fun hk => h.2 c hk hc

/-- The lines of the generated Makefile. -/
def makeLines (conv : Bool) (ks : List Str) : List Str :=
  [c!".POSIX:", [], c!"CXXFLAGS = -std=c++11 -Wall -Wextra", [], c!".PHONY: all mkdir", [],
   c!"all: mkdir" ++ ks.flatMap (fun k => c!" " ++ makeOutput k), [], c!"mkdir:", c!"\tmkdir -p bin", []] ++
  ks.flatMap (fun k => [makeOutput k ++ c!": " ++ makeInputs k ++ makeConvert conv,
    c!"\t$(CXX) $(CXXFLAGS) -o $@ -Isrc/" ++ k ++ c!"/include -Isrc/rtcg" ++ makeIConvert conv ++ c!" " ++ makeInputs k ++ makeConvert conv])

theorem rules_shift (conv : Bool) : ∀ (ks : List Str), ks.flatMap (makeRule conv) ++ c!"\n" =
    c!"\n" ++ (ks.flatMap (fun k => [makeOutput k ++ c!": " ++ makeInputs k ++ makeConvert conv,
    c!"\t$(CXX) $(CXXFLAGS) -o $@ -Isrc/" ++ k ++ c!"/include -Isrc/rtcg" ++ makeIConvert conv ++ c!" " ++ makeInputs k ++ makeConvert conv])).flatMap (· ++ ['\n'])
  | [] => rfl
  | k :: ks => by
    rw [List.flatMap_cons, List.append_assoc, rules_shift conv ks]
    simp [makeRule]

theorem makefileText_lines (tests : List Str) (ctx : CppConfig.Context) :
    makefileText tests ctx = (makeLines ctx.hasConversion (sortedKeys tests)).flatMap (· ++ ['\n']) := by
  unfold makefileText makeLines
  rw [List.append_assoc, rules_shift]
  simp

theorem readLines_append (ls ms : List Str) : ∀ rs, readLines rs (ls ++ ms) = (readLines rs ls).bind (readLines · ms) := by
  induction ls with
  | nil => intro rs; rfl
  | cons l ls ih =>
    intro rs
    simp only [List.cons_append, readLines]
    cases readLine rs l with
    | none => rfl
    | some r => exact ih r

theorem safe_word {k : Str} (h : Safe k) (a b : Str) (ha : Word a) (hb : ∀ c ∈ b, c ≠ ' ' ∧ c ≠ '\t') : Word (a ++ k ++ b) := by
  refine ⟨by simp [ha.1], fun c hc => ?_⟩
  rcases List.mem_append.1 hc with hc | hc
  · rcases List.mem_append.1 hc with hc | hc
    · exact ha.2 c hc
    · exact ⟨fun e => h.2 c hc (by rw [e]; decide), fun e => h.2 c hc (by rw [e]; decide)⟩
  · exact hb c hc

theorem takeWhile_stop {p : Char → Bool} {x : Char} (hx : p x = false) (r : Str) : ∀ {a : Str}, (∀ c ∈ a, p c = true) →
    (a ++ x :: r).takeWhile p = a ∧ (a ++ x :: r).dropWhile p = x :: r
  | [], _ => by simp [hx]
  | c :: cs, h => by
    have := takeWhile_stop hx r (a := cs) (fun y hy => h y (by simp [hy]))
    simp [h c (by simp), this.1, this.2]

/-- Reading a rule line. -/
theorem readLine_rule (rs : List Rule) (t pre : Str) (ht : Word t) (hs : ∀ c ∈ t, c ∉ makeSpecial) (hp : ∀ c ∈ pre, c ∉ makeSpecial) :
    readLine rs (t ++ ':' :: pre) = some (rs ++ [⟨[t], words pre, []⟩]) := by
  obtain ⟨c, cs, rfl⟩ : ∃ c cs, t = c :: cs := by
    cases t with
    | nil => exact absurd rfl ht.1
    | cons c cs => exact ⟨c, cs, rfl⟩
  have hc := ht.2 c (by simp)
  have hw : words (c :: cs ++ ':' :: pre) ≠ [] := by
    unfold words
    intro h
    have h2 : ∀ w ∈ cut (fun c => c == ' ' || c == '\t') (c :: (cs ++ ':' :: pre)), w = [] := by
      intro w hw
      refine Classical.byContradiction fun hne => ?_
      have : w ∈ ([] : List Str) := by
        rw [← h]; exact List.mem_filter.2 ⟨hw, by simp [hne]⟩
      simp at this
    have h3 : ∀ s : Str, cut (fun c => c == ' ' || c == '\t') s ≠ [] := by
      intro s
      induction s with
      | nil => simp [cut]
      | cons d ds ih =>
        simp only [cut]
        split
        · simp
        · cases hd : cut (fun c => c == ' ' || c == '\t') ds with
          | nil => exact absurd hd ih
          | cons a b => simp
    simp only [cut] at h2
    rw [if_neg (by simp [hc.1, hc.2])] at h2
    cases hd : cut (fun c => c == ' ' || c == '\t') (cs ++ ':' :: pre) with
    | nil => exact h3 _ hd
    | cons a b =>
      rw [hd] at h2
      have := h2 (c :: a) (by simp)
      cases this
  obtain ⟨h1, h2⟩ := takeWhile_stop (p := fun c => c != ':' && c != '=') (x := ':') (by simp) pre (a := c :: cs) (fun d hd => by
    have := hs d hd
    simp only [makeSpecial, List.mem_cons, not_or] at this
    simp [this.1, this.2.1])
  have hf : (c :: cs).any (makeSpecial.contains ·) = false := by
    rw [List.any_eq_false]; intro d hd; simpa using hs d hd
  have hg : pre.any (makeSpecial.contains ·) = false := by
    rw [List.any_eq_false]; intro d hd; simpa using hp d hd
  have hu : readLine rs (c :: cs ++ ':' :: pre) =
      (if words (c :: cs ++ ':' :: pre) = [] then some rs
       else
         let front := (c :: cs ++ ':' :: pre).takeWhile (fun c => c != ':' && c != '=')
         let rest := (c :: cs ++ ':' :: pre).dropWhile (fun c => c != ':' && c != '=')
         if front.any (makeSpecial.contains ·) then none
         else match rest with
        | '=' :: _ => some rs
        | ':' :: pre => if pre.any (makeSpecial.contains ·) then none else some (rs ++ [⟨words front, words pre, []⟩])
        | _ => none) := by
    unfold readLine
    split
    · rename_i heq
      simp only [List.cons_append, List.cons.injEq] at heq
      exact absurd heq.1 hc.2
    · rfl
  rw [hu, if_neg hw]
  simp only [h1, h2, hf, Bool.false_eq_true, if_false, hg, words_one ht]

theorem readLine_recipe (rs : List Rule) (r : Rule) (cmd : Str) :
    readLine (rs ++ [r]) ('\t' :: cmd) = some (rs ++ [{ r with recipe := r.recipe ++ [words cmd] }]) := by
  simp [readLine]

theorem words_cmd (k : Str) (conv : Bool) (h : Safe k) :
    words (c!"$(CXX) $(CXXFLAGS) -o $@ -Isrc/" ++ k ++ c!"/include -Isrc/rtcg" ++ makeIConvert conv ++ c!" " ++ makeInputs k ++ makeConvert conv) =
      [c!"$(CXX)", c!"$(CXXFLAGS)", c!"-o", c!"$@"] ++ (includeDirs conv k).map (c!"-I" ++ ·) ++ sources conv k := by
  have hW : ∀ w ∈ [c!"$(CXX)", c!"$(CXXFLAGS)", c!"-o", c!"$@"] ++ (includeDirs conv k).map (c!"-I" ++ ·) ++ sources conv k, Word w := by
    intro w hw
    have h1 : Word (c!"-Isrc/" ++ k ++ c!"/include") := safe_word h _ _ (by decide) (by decide)
    have h2 : Word (c!"src/" ++ k ++ c!"/src/main.cpp") := safe_word h _ _ (by decide) (by decide)
    cases conv <;>
    · simp [includeDirs, sources] at hw
      rcases hw with rfl | rfl | rfl | rfl | hw
      · decide
      · decide
      · decide
      · decide
      · rcases hw with rfl | hw
        · exact h1
        · rcases hw with rfl | hw
          · decide
          · rcases hw with rfl | hw
            · first | exact h2 | decide
            · first
              | (subst hw; decide)
              | (rcases hw with rfl | rfl | rfl
                 · exact h2
                 · decide
                 · decide)
  rw [← words_spaced _ hW]
  rw [← words_blank]
  congr 1
  cases conv <;> simp [includeDirs, sources, makeIConvert, makeInputs, makeConvert]

theorem words_pre (k : Str) (conv : Bool) (h : Safe k) : words (c!" " ++ makeInputs k ++ makeConvert conv) = sources conv k := by
  have hW : ∀ w ∈ sources conv k, Word w := by
    intro w hw
    have h2 : Word (c!"src/" ++ k ++ c!"/src/main.cpp") := safe_word h _ _ (by decide) (by decide)
    cases conv
    · simp [sources] at hw
      rcases hw with rfl | rfl
      · exact h2
      · decide
    · simp [sources] at hw
      rcases hw with rfl | rfl | rfl
      · exact h2
      · decide
      · decide
  rw [← words_spaced _ hW]
  congr 1
  cases conv <;> simp [sources, makeInputs, makeConvert]

theorem safe_special {k : Str} (h : Safe k) (a b : Str) (ha : ∀ c ∈ a, c ∉ makeSpecial) (hb : ∀ c ∈ b, c ∉ makeSpecial) :
    ∀ c ∈ a ++ k ++ b, c ∉ makeSpecial := by
  intro c hc
  rcases List.mem_append.1 hc with hc | hc
  · rcases List.mem_append.1 hc with hc | hc
    · exact ha c hc
    · exact fun e => h.2 c hc (List.mem_append_left _ (List.mem_append_left _ e))
  · exact hb c hc

theorem readLines_rules (conv : Bool) : ∀ (ks : List Str) (rs : List Rule), (∀ k ∈ ks, Safe k) →
    readLines rs (ks.flatMap (fun k => [makeOutput k ++ c!": " ++ makeInputs k ++ makeConvert conv,
    c!"\t$(CXX) $(CXXFLAGS) -o $@ -Isrc/" ++ k ++ c!"/include -Isrc/rtcg" ++ makeIConvert conv ++ c!" " ++ makeInputs k ++ makeConvert conv])) =
      some (rs ++ ks.map (testRule conv))
  | [], rs, _ => by simp [readLines]
  | k :: ks, rs, h => by
    have hk := h k (by simp)
    have ih := readLines_rules conv ks (rs ++ [testRule conv k]) (fun x hx => h x (by simp [hx]))
    have e1 : makeOutput k ++ c!": " ++ makeInputs k ++ makeConvert conv = makeOutput k ++ ':' :: (c!" " ++ makeInputs k ++ makeConvert conv) := by simp
    have r1 := readLine_rule rs (makeOutput k) (c!" " ++ makeInputs k ++ makeConvert conv)
      (by have := safe_word hk c!"bin/" [] (by decide) (by decide); rw [List.append_nil] at this; exact this)
      (by have := safe_special hk c!"bin/" [] (by decide) (by decide); rw [List.append_nil] at this; exact this)
      (by
        have := safe_special hk c!" src/" (c!"/src/main.cpp src/rtcg/rtcg.cpp" ++ makeConvert conv) (by decide) (by cases conv <;> decide)
        simpa [makeInputs] using this)
    have r2 := readLine_recipe rs ⟨[makeOutput k], words (c!" " ++ makeInputs k ++ makeConvert conv), []⟩
      (c!"$(CXX) $(CXXFLAGS) -o $@ -Isrc/" ++ k ++ c!"/include -Isrc/rtcg" ++ makeIConvert conv ++ c!" " ++ makeInputs k ++ makeConvert conv)
    rw [words_cmd k conv hk, words_pre k conv hk] at r2
    rw [words_pre k conv hk] at r1
    rw [List.flatMap_cons, List.cons_append, List.cons_append, List.nil_append]
    simp only [readLines]
    rw [e1, r1]
    simp only [Option.bind_some]
    have e2 : c!"\t$(CXX) $(CXXFLAGS) -o $@ -Isrc/" ++ k ++ c!"/include -Isrc/rtcg" ++ makeIConvert conv ++ c!" " ++ makeInputs k ++ makeConvert conv =
      '\t' :: (c!"$(CXX) $(CXXFLAGS) -o $@ -Isrc/" ++ k ++ c!"/include -Isrc/rtcg" ++ makeIConvert conv ++ c!" " ++ makeInputs k ++ makeConvert conv) := by
      simp only [List.cons_append]
    rw [e2, r2]
    simp only [Option.bind_some]
    rw [List.map_cons, ← List.singleton_append (x := testRule conv k), ← List.append_assoc]
    exact ih

theorem read_makefile (tests : List Str) (ctx : CppConfig.Context) (h : ∀ k ∈ tests, Safe k) :
    read (makefileText tests ctx) = some (expected ctx.hasConversion (sortedKeys tests)) := by
  have hs : ∀ k ∈ sortedKeys tests, Safe k := fun k hk => h k ((List.mergeSort_perm tests _).mem_iff.1 hk)
  generalize hks : sortedKeys tests = ks at hs
  unfold read
  rw [makefileText_lines, hks, lines_flatMap]
  · unfold makeLines
    rw [List.append_assoc, readLines_append]
    have hall : words (c!" mkdir" ++ ks.flatMap (fun k => c!" " ++ makeOutput k)) = c!"mkdir" :: ks.map (c!"bin/" ++ ·) := by
      have := words_spaced (c!"mkdir" :: ks.map (c!"bin/" ++ ·)) (by
        intro w hw
        rcases List.mem_cons.1 hw with rfl | hw
        · decide
        · obtain ⟨k, hk, rfl⟩ := List.mem_map.1 hw
          simpa using safe_word (hs k hk) c!"bin/" [] (by decide) (by decide))
      rw [← this]
      congr 1
      simp [makeOutput, List.flatMap_map]
    have e : c!"all: mkdir" ++ ks.flatMap (fun k => c!" " ++ makeOutput k) = c!"all" ++ ':' :: (c!" mkdir" ++ ks.flatMap (fun k => c!" " ++ makeOutput k)) := by
      simp
    have rall := fun rs => readLine_rule rs c!"all" (c!" mkdir" ++ ks.flatMap (fun k => c!" " ++ makeOutput k)) (by decide) (by decide) (by
      intro c hc
      rcases List.mem_append.1 hc with hc | hc
      · exact (by decide : ∀ c ∈ c!" mkdir", c ∉ makeSpecial) c hc
      · obtain ⟨k, hk, hc⟩ := List.mem_flatMap.1 hc
        have := safe_special (hs k hk) c!" bin/" [] (by decide) (by decide) c
        simp only [List.append_nil] at this
        exact this (by simpa [makeOutput] using hc))
    rw [hall] at rall
    have hfirst : readLines [] [c!".POSIX:", [], c!"CXXFLAGS = -std=c++11 -Wall -Wextra", [], c!".PHONY: all mkdir", [],
        c!"all: mkdir" ++ ks.flatMap (fun k => c!" " ++ makeOutput k), [], c!"mkdir:", c!"\tmkdir -p bin", []] =
        some [⟨[c!".POSIX"], [], []⟩, ⟨[c!".PHONY"], [c!"all", c!"mkdir"], []⟩,
          ⟨[c!"all"], c!"mkdir" :: ks.map (c!"bin/" ++ ·), []⟩, ⟨[c!"mkdir"], [], [[c!"mkdir", c!"-p", c!"bin"]]⟩] := by
      have h1 : readLines [] [c!".POSIX:", [], c!"CXXFLAGS = -std=c++11 -Wall -Wextra", [], c!".PHONY: all mkdir", []] =
        some [⟨[c!".POSIX"], [], []⟩, ⟨[c!".PHONY"], [c!"all", c!"mkdir"], []⟩] := by decide
      have h2 : ∀ r : Rule, readLines [⟨[c!".POSIX"], [], []⟩, ⟨[c!".PHONY"], [c!"all", c!"mkdir"], []⟩, r] [[], c!"mkdir:", c!"\tmkdir -p bin", []] =
        some [⟨[c!".POSIX"], [], []⟩, ⟨[c!".PHONY"], [c!"all", c!"mkdir"], []⟩, r, ⟨[c!"mkdir"], [], [[c!"mkdir", c!"-p", c!"bin"]]⟩] := by
        intro r; rfl
      have := readLines_append [c!".POSIX:", [], c!"CXXFLAGS = -std=c++11 -Wall -Wextra", [], c!".PHONY: all mkdir", []]
        ((c!"all: mkdir" ++ ks.flatMap (fun k => c!" " ++ makeOutput k)) :: [[], c!"mkdir:", c!"\tmkdir -p bin", []]) []
      rw [h1] at this
      refine this.trans ?_
      simp only [Option.bind_some, readLines]
      rw [e, rall]
      simp only [Option.bind_some]
      exact h2 _
    rw [hfirst]
    simp only [Option.bind_some]
    rw [readLines_append, readLines_rules _ ks _ hs]
    rfl
  · intro l hl
    have hno : ∀ k ∈ ks, '\n' ∉ k := fun k hk => (hs k hk).not_mem (by decide)
    unfold makeLines at hl
    rcases List.mem_append.1 hl with hl | hl
    · simp only [List.mem_cons, List.not_mem_nil, or_false] at hl
      rcases hl with rfl | rfl | rfl | rfl | rfl | rfl | rfl | rfl | rfl | rfl | rfl <;> try decide
      intro hc
      rcases List.mem_append.1 hc with hc | hc
      · exact absurd hc (by decide)
      · obtain ⟨k, hk, hc⟩ := List.mem_flatMap.1 hc
        have := hno k hk
        simp [makeOutput] at hc
        exact this hc
    · obtain ⟨k, hk, hl⟩ := List.mem_flatMap.1 hl
      have := hno k hk
      simp only [List.mem_cons, List.not_mem_nil, or_false] at hl
      rcases hl with rfl | rfl <;> cases ctx.hasConversion <;> simp [makeOutput, makeInputs, makeConvert, makeIConvert, this]

end Rtcg.Spec.Make
