import Verif.Proofs.CppTree
import Verif.Spec.CppNames

/-
The tokens of main.cpp are those of its syntax tree.
-/

namespace Rtcg

namespace Spec

namespace Cpp

namespace Lex

/-! ### character by character -/

/-- The tokens of a text that starts in the mode `m` -/
def L (m : Mode) (s : Str) : List Tok := (lexFrom m s).2 ++ lexEnd (lexFrom m s).1

theorem L_cons (m : Mode) (c : Char) (cs : Str) : L m (c :: cs) = (lexChar m c).2 ++ L (lexChar m c).1 cs := by
  simp only [L, lexFrom, List.append_assoc]

theorem L_step {m m' : Mode} {c : Char} {ts : List Tok} (h : lexChar m c = (m', ts)) (cs : Str) : L m (c :: cs) = ts ++ L m' cs := by
  rw [L_cons, h]

theorem L_nil (m : Mode) : L m [] = lexEnd m := rfl

theorem start_word {c : Char} (h : wordChar c = true) : start c = (.word [c], []) := by
  rw [start, if_pos h]

theorem L_idle_word {c : Char} (cs : Str) (h : wordChar c = true) : L .idle (c :: cs) = L (.word [c]) cs :=
  L_step (m := .idle) (ts := []) (start_word h) cs

theorem L_idle_blank {c : Char} (cs : Str) (h : blank c = true) : L .idle (c :: cs) = L .idle cs := by
  refine L_step (ts := []) ?_ cs
  simp only [blank, Bool.or_eq_true, decide_eq_true_eq] at h
  rcases h with (rfl | rfl) | rfl <;> rfl

theorem L_idle_quote (cs : Str) : L .idle ('"' :: cs) = L (.str []) cs := L_step (ts := []) rfl cs

theorem L_idle_hash (cs : Str) : L .idle ('#' :: cs) = L (.dir []) cs := L_step (ts := []) rfl cs

theorem L_idle_op {c : Char} (cs : Str) (h : opChar c = true) : L .idle (c :: cs) = L (.op c) cs := by
  refine L_step (ts := []) ?_ cs
  show start c = _
  have : ∀ c ∈ "(){}[];:,.<>=!&*-+/".toList, start c = (.op c, []) := by decide
  exact this c (by simpa [opChar] using h)

theorem L_word_word {c : Char} (w cs : Str) (h : wordChar c = true) : L (.word w) (c :: cs) = L (.word (w ++ [c])) cs := by
  refine L_step (ts := []) ?_ cs
  simp only [lexChar, h, if_true]

theorem L_word_stop {c : Char} (w cs : Str) (h : wordChar c = false) : L (.word w) (c :: cs) = .word w :: L .idle (c :: cs) := by
  rw [L_cons, L_cons .idle]
  simp only [lexChar, h, Bool.false_eq_true, if_false, List.cons_append]

theorem L_op_comment (cs : Str) : L (.op '/') ('/' :: cs) = L .line cs := L_step (ts := []) rfl cs

theorem L_op_two {a c : Char} (cs : Str) (h : twoChars a c = true) : L (.op a) (c :: cs) = .op [a, c] :: L .idle cs := by
  refine L_step (ts := [.op [a, c]]) ?_ cs
  have h2 : ∀ p ∈ [c!"::", c!"==", c!"!=", c!"<<", c!">>", c!"&&", c!"->"], p.head? ≠ some '/' := by decide
  have ha : a ≠ '/' := by
    rintro rfl
    exact h2 ['/', c] (by simpa [twoChars] using h) rfl
  simp [lexChar, h, ha]

theorem L_op_stop {a c : Char} (cs : Str) (h : (a = '/' && c = '/') = false) (h2 : twoChars a c = false) :
    L (.op a) (c :: cs) = .op [a] :: L .idle (c :: cs) := by
  rw [L_cons, L_cons .idle]
  simp only [lexChar, h, h2, Bool.false_eq_true, if_false, List.cons_append]

theorem L_str_quote (s cs : Str) : L (.str s) ('"' :: cs) = .str s :: L .idle cs := L_step (ts := [.str s]) rfl cs

theorem L_str_esc (s cs : Str) : L (.str s) ('\\' :: cs) = L (.esc s) cs := L_step (ts := []) rfl cs

theorem L_esc_n (s cs : Str) : L (.esc s) ('n' :: cs) = L (.str (s ++ ['\n'])) cs := L_step (ts := []) rfl cs

theorem L_str_char {c : Char} (s cs : Str) (h : plainChar c = true) : L (.str s) (c :: cs) = L (.str (s ++ [c])) cs := by
  refine L_step (ts := []) ?_ cs
  simp only [plainChar, Bool.not_eq_true', Bool.or_eq_false_iff, decide_eq_false_iff_not] at h
  simp [lexChar, h]

theorem L_line_end (cs : Str) : L .line ('\n' :: cs) = L .idle cs := L_step (ts := []) rfl cs

theorem L_line_char {c : Char} (cs : Str) (h : lineChar c = true) : L .line (c :: cs) = L .line cs := by
  refine L_step (ts := []) ?_ cs
  simp only [lineChar, Bool.not_eq_true', Bool.or_eq_false_iff, decide_eq_false_iff_not] at h
  simp [lexChar, h]

theorem L_dir_end (s cs : Str) : L (.dir s) ('\n' :: cs) = .dir s :: L .idle cs := L_step (ts := [.dir s]) rfl cs

theorem L_dir_char {c : Char} (s cs : Str) (h : lineChar c = true) : L (.dir s) (c :: cs) = L (.dir (s ++ [c])) cs := by
  refine L_step (ts := []) ?_ cs
  simp only [lineChar, Bool.not_eq_true', Bool.or_eq_false_iff, decide_eq_false_iff_not] at h
  simp [lexChar, h]

/-! ### names and texts -/

/-- A word -/
def W (t : Str) : Prop := t ≠ [] ∧ t.all wordChar = true

theorem ident_W {w : Str} (h : Ident w) : W w := by
  simp only [Ident, isIdent, Bool.and_eq_true] at h
  refine ⟨?_, h.1.2⟩
  rintro rfl
  simp at h

theorem wordChar_plain {c : Char} (h : wordChar c = true) : plainChar c = true ∧ lineChar c = true := by
  have : c ≠ '"' ∧ c ≠ '\\' ∧ c ≠ '\n' := by
    refine ⟨?_, ?_, ?_⟩ <;> (rintro rfl; exact absurd h (by decide))
  simp [plainChar, lineChar, this]

theorem W.plain {w : Str} (h : W w) : Plain w := by
  unfold Plain
  rw [List.all_eq_true]
  intro c hc
  exact (wordChar_plain (List.all_eq_true.1 h.2 c hc)).1

theorem plain_line {s : Str} (h : Plain s) : OneLine s := by
  unfold Plain at h
  unfold OneLine
  rw [List.all_eq_true] at h ⊢
  intro c hc
  have := h c hc
  simp only [plainChar, lineChar, Bool.not_eq_true', Bool.or_eq_false_iff] at this ⊢
  exact ⟨this.1.2, this.2⟩

theorem L_word_all (t w cs : Str) (h : t.all wordChar = true) : L (.word w) (t ++ cs) = L (.word (w ++ t)) cs := by
  induction t generalizing w with
  | nil => simp
  | cons c t ih =>
    rw [List.all_cons, Bool.and_eq_true] at h
    rw [List.cons_append, L_word_word _ _ h.1, ih _ h.2, List.append_assoc]
    rfl

theorem L_word_W {t : Str} (w cs : Str) (h : W t) : L (.word w) (t ++ cs) = L (.word (w ++ t)) cs := L_word_all t w cs h.2

theorem L_idle_W {t : Str} (cs : Str) (h : W t) : L .idle (t ++ cs) = L (.word t) cs := by
  obtain ⟨h1, h2⟩ := h
  cases t with
  | nil => exact absurd rfl h1
  | cons c t =>
    rw [List.all_cons, Bool.and_eq_true] at h2
    rw [List.cons_append, L_idle_word _ h2.1, L_word_all t _ _ h2.2]
    rfl

theorem twoChars_word {a c : Char} (h : wordChar c = true) : twoChars a c = false := by
  cases h2 : twoChars a c with
  | false => rfl
  | true =>
    have h3 : ∀ p ∈ [c!"::", c!"==", c!"!=", c!"<<", c!">>", c!"&&", c!"->"], p.tail.all (fun c => !wordChar c) = true := by decide
    have := h3 [a, c] (by simpa [twoChars] using h2)
    simp [h] at this

theorem L_op_W {t : Str} (a : Char) (cs : Str) (h : W t) : L (.op a) (t ++ cs) = .op [a] :: L (.word t) cs := by
  have hw := h
  obtain ⟨h1, h2⟩ := h
  cases t with
  | nil => exact absurd rfl h1
  | cons c t =>
    rw [List.all_cons, Bool.and_eq_true] at h2
    have hc : c ≠ '/' := by rintro rfl; exact absurd h2.1 (by decide)
    rw [List.cons_append, L_op_stop _ (by simp [hc]) (twoChars_word h2.1), ← List.cons_append, L_idle_W _ hw]

theorem L_str_plain {t : Str} (w cs : Str) (h : Plain t) : L (.str w) (t ++ cs) = L (.str (w ++ t)) cs := by
  unfold Plain at h
  induction t generalizing w with
  | nil => simp
  | cons c t ih =>
    rw [List.all_cons, Bool.and_eq_true] at h
    rw [List.cons_append, L_str_char _ _ h.1, ih _ h.2, List.append_assoc]
    rfl

theorem L_line_all {t : Str} (cs : Str) (h : OneLine t) : L .line (t ++ cs) = L .line cs := by
  unfold OneLine at h
  induction t with
  | nil => rfl
  | cons c t ih =>
    rw [List.all_cons, Bool.and_eq_true] at h
    rw [List.cons_append, L_line_char _ h.1, ih h.2]

theorem L_dir_all {t : Str} (s cs : Str) (h : OneLine t) : L (.dir s) (t ++ cs) = L (.dir (s ++ t)) cs := by
  unfold OneLine at h
  induction t generalizing s with
  | nil => simp
  | cons c t ih =>
    rw [List.all_cons, Bool.and_eq_true] at h
    rw [List.cons_append, L_dir_char _ _ h.1, ih _ h.2, List.append_assoc]
    rfl

/-- What follows a block: nothing, or a new line -/
def NL (rest : Str) : Prop := rest = [] ∨ ∃ r, rest = '\n' :: r

theorem NL.cons (r : Str) : NL ('\n' :: r) := .inr ⟨r, rfl⟩

theorem L_op_NL {rest : Str} (h : NL rest) (c : Char) : L (.op c) rest = .op [c] :: L .idle rest := by
  rcases h with rfl | ⟨r, rfl⟩
  · rfl
  · refine L_op_stop _ (by simp) ?_
    have h3 : ∀ p ∈ [c!"::", c!"==", c!"!=", c!"<<", c!">>", c!"&&", c!"->"], p.tail.head? ≠ some '\n' := by decide
    cases h2 : twoChars c '\n' with
    | false => rfl
    | true => exact absurd rfl (h3 [c, '\n'] (by simpa [twoChars] using h2))

theorem L_line_NL {rest : Str} (h : NL rest) : L .line rest = L .idle rest := by
  rcases h with rfl | ⟨r, rfl⟩
  · rfl
  · rw [L_line_end, L_idle_blank r (by decide)]

theorem L_dir_NL {rest : Str} (h : NL rest) (s : Str) : L (.dir s) rest = .dir s :: L .idle rest := by
  rcases h with rfl | ⟨r, rfl⟩
  · rfl
  · rw [L_dir_end, L_idle_blank r (by decide)]

/-! ### lists of blocks -/

theorem NL.flatMap {α : Type} {f : α → Str} {l : List α} (h : ∀ x ∈ l, ∃ r, f x = '\n' :: r) {rest : Str} (hr : NL rest) :
    NL (l.flatMap f ++ rest) := by
  cases l with
  | nil => exact hr
  | cons x l =>
    obtain ⟨r, hx⟩ := h x (by simp)
    rw [List.flatMap_cons, hx]
    exact .cons _

theorem L_flatMap {α : Type} {f : α → Str} {p : α → List Tok} (l : List α) (hnl : ∀ x ∈ l, ∃ r, f x = '\n' :: r)
    (hf : ∀ x ∈ l, ∀ rest, NL rest → L .idle (f x ++ rest) = p x ++ L .idle rest) (rest : Str) (hr : NL rest) :
    L .idle (l.flatMap f ++ rest) = l.flatMap p ++ L .idle rest := by
  induction l with
  | nil => rfl
  | cons x l ih =>
    have hnl' : ∀ y ∈ l, ∃ r, f y = '\n' :: r := fun y hy => hnl y (List.mem_cons_of_mem _ hy)
    rw [List.flatMap_cons, List.flatMap_cons, List.append_assoc, List.append_assoc,
      hf x (by simp) _ (NL.flatMap hnl' hr), ih hnl' (fun y hy => hf y (List.mem_cons_of_mem _ hy))]

/-! ### a tactic -/

open Lean Parser Tactic in
/-- Runs the lexer on the left and the printer on the right -/
macro "lexing" "[" ds:simpLemma,* "]" : tactic =>
  `(tactic| set_option maxRecDepth 20000 in simp (config := { decide := true }) only [$ds,*, CppText.logged, CppText.log, CppText.endLog, Tree.logged,
    List.append_assoc, List.cons_append, List.nil_append, List.append_nil, if_false, if_true, ite_true, ite_false,
    L_idle_blank, L_idle_word, L_idle_quote, L_idle_hash, L_idle_op, L_word_word, L_word_stop, L_op_comment, L_op_two,
    L_op_stop, L_str_quote, L_str_esc, L_esc_n, L_str_char, L_line_end, L_line_char, L_idle_W, L_op_W, L_word_W, L_str_plain, L_line_all,
    L_op_NL, L_line_NL, L_dir_end, L_dir_char, L_dir_all, L_dir_NL,
    Parse.pItem, Parse.pTypeOpt, Parse.pBody, Parse.pParams, Parse.pParam, Parse.pBase, Parse.pSs, Parse.pSt, Parse.pE, Parse.pS, Parse.pA,
    Parse.pT, Parse.pType, Parse.pTypeName, Parse.pq, Parse.qrest, Tree.stmtsOf, Tree.argsOf, Tree.outs, Tree.nm, Tree.status, Tree.call,
    Tree.mcall, Tree.ty, Tree.void, Tree.auto, List.map_nil, List.map_cons, List.flatMap_cons, List.flatMap_nil])

open CppText in
theorem setter_lex {U : Unicode} (hU : U.strToUpper c!"info" = c!"INFO") {v : Variant} (hv : v = .animate ∨ v = .ros) {t : Str} (ht : W t) (rest : Str) (hr : NL rest) :
    L .idle (setter U v t ++ rest) = Parse.pItem (.fn (some Tree.void) [c!"Verdict", t] [(Tree.outcomeTy, c!"new_val")]
    (some (Tree.stmtsOf [
      .ite (.eq c!"==" (Tree.nm (t ++ c!"_")) (Tree.nm c!"new_val")) .ret .skip,
      Tree.logged U v c!"info" (.str (c!"Test " ++ t ++ c!" is now ")) [Tree.nm c!"new_val", .str c!"; was ", Tree.nm (t ++ c!"_"), .str c!"."],
      .expr (.assign (Tree.nm (t ++ c!"_")) (Tree.nm c!"new_val"))]))) ++ L .idle rest := by
  have hp := ht.plain
  have hl := plain_line hp
  rcases hv with rfl | rfl
  · lexing [setter, Tree.outcomeTy, ht, hp, hl, hr]
  · lexing [setter, Tree.outcomeTy, ht, hp, hl, hr, hU]

end Lex

end Cpp

end Spec

end Rtcg
