import Verif.Proofs.Csv

namespace Rtcg
open Rtcg.Spec

namespace Csv

/-! ### lines -/

theorem dropCR_append_cr (l : Str) : dropCR (l ++ ['\r']) = l := by
  unfold dropCR; simp

theorem dropCR_of_not_mem {l : Str} (h : '\r' ∉ l) : dropCR l = l := by
  unfold dropCR
  split
  · rename_i hg; exact absurd (List.mem_of_getLast? hg) h
  · rfl

theorem readLine_line {l : Str} (h1 : '\n' ∉ l) (h2 : '\r' ∉ l) {e : Str} (he : IsEol e) (f : Str) :
    readLine (l ++ e ++ f) = some (l ++ ['\n'], f) := by
  unfold readLine
  rcases he with rfl | rfl
  · rw [if_neg (by simp)]
    have : l ++ ['\n'] ++ f = l ++ '\n' :: f := by simp
    rw [this, cut_append h1]
    simp only [dropCR_of_not_mem h2]
  · rw [if_neg (by simp)]
    have : l ++ ['\r', '\n'] ++ f = (l ++ ['\r']) ++ '\n' :: f := by simp
    rw [this, cut_append (by simp [h1])]
    simp only [dropCR_append_cr]

theorem readLine_final {l : Str} (h1 : '\n' ∉ l) (h2 : '\r' ∉ l) (hne : l ≠ []) :
    readLine l = some (l, []) := by
  unfold readLine
  rw [if_neg hne, (cut_eq_none_iff _ _).2 h1, dropCR_of_not_mem h2]

/-- A line terminated by `\n` with no other `\n` in it. -/
theorem readLine_nl {l : Str} (h1 : '\n' ∉ l) (f : Str) :
    readLine (l ++ '\n' :: f) = some (dropCR l ++ ['\n'], f) := by
  unfold readLine
  rw [if_neg (by simp), cut_append h1]

theorem recordStep_comment {c : Str} (hc : '\n' ∉ c) (f : Str) : recordStep ('#' :: c ++ '\n' :: f) = .inl f := by
  unfold recordStep
  rw [show '#' :: c ++ '\n' :: f = ('#' :: c) ++ '\n' :: f from rfl, readLine_nl (by simp [hc])]
  simp only
  rw [if_pos]
  unfold dropCR
  split
  · rename_i hg
    cases c with
    | nil => simp at hg
    | cons x c => simp
  · rfl

theorem recordStep_blank {e : Str} (he : IsEol e) (f : Str) : recordStep (e ++ f) = .inl f := by
  have := readLine_line (l := []) (by simp) (by simp) he f
  simp only [List.nil_append] at this
  unfold recordStep
  rw [this]
  simp

theorem readRecord_comment {c : Str} (hc : '\n' ∉ c) (f : Str) :
    readRecord ('#' :: c ++ '\n' :: f) = readRecord f := by
  rw [readRecord_eq, recordStep_comment hc]

theorem readRecord_blank {e : Str} (he : IsEol e) (f : Str) : readRecord (e ++ f) = readRecord f := by
  rw [readRecord_eq, recordStep_blank he]

/-! ### cells and rows -/

theorem parse_quoted_char {c : Char} (hc : c ≠ '"') {L : Str} (hL : '"' ∈ L) (rest : Str) (acc : List Str) (buf : Str) :
    parseFrom ⟨c :: L, rest, acc, .quoted buf⟩ = parseFrom ⟨L, rest, acc, .quoted (buf ++ [c])⟩ := by
  rw [parseFrom_eq, parseFrom_eq ⟨L, rest, acc, .quoted (buf ++ [c])⟩]
  have : parseStep ⟨c :: L, rest, acc, .quoted buf⟩ = parseStep ⟨L, rest, acc, .quoted (buf ++ [c])⟩ := by
    unfold parseStep
    simp only [cut, if_neg hc]
    cases hcut : cut '"' L with
    | none => rw [cut_eq_none_iff] at hcut; exact absurd hL hcut
    | some ab => simp
  rw [this]

theorem parse_quoted_quote (L : Str) (rest : Str) (acc : List Str) (buf : Str) :
    parseFrom ⟨'"' :: '"' :: L, rest, acc, .quoted buf⟩ = parseFrom ⟨L, rest, acc, .quoted (buf ++ ['"'])⟩ := by
  rw [parseFrom_eq]
  have : parseStep ⟨'"' :: '"' :: L, rest, acc, .quoted buf⟩ = .inl ⟨L, rest, acc, .quoted (buf ++ ['"'])⟩ := by
    simp [parseStep, cut]
  rw [this]

theorem parse_quoted (t tail rest : Str) (acc : List Str) (buf : Str) :
    parseFrom ⟨escapeQuotes t ++ '"' :: tail, rest, acc, .quoted buf⟩ =
      parseFrom ⟨'"' :: tail, rest, acc, .quoted (buf ++ t)⟩ := by
  induction t generalizing buf with
  | nil => simp [escapeQuotes]
  | cons c t ih =>
    unfold escapeQuotes
    split
    · rename_i h; subst h
      rw [List.cons_append, List.cons_append, parse_quoted_quote, ih]; simp
    · rename_i h
      rw [List.cons_append, parse_quoted_char h (by simp), ih]; simp

theorem trimLeft_pad {pad s : Str} (hpad : ∀ c ∈ pad, white c = true ∧ c ≠ '\n' ∧ c ≠ '\r') :
    trimLeft (pad ++ s) = trimLeft s := trimLeft_append_space fun c hc => (hpad c hc).1

theorem isSpace_comma : white ',' = false := by decide
theorem isSpace_quote : white '"' = false := by decide
theorem isSpace_nl : white '\n' = true := by decide

theorem trimLeft_cons_false {c : Char} (h : white c = false) (s : Str) : trimLeft (c :: s) = c :: s := by
  simp [trimLeft_def, h]

/-- A cell followed by a comma. -/
theorem parse_cell_comma {t w : Str} (h : CellWritten t w) (l rest : Str) (acc : List Str) :
    parseFrom ⟨w ++ ',' :: l, rest, acc, .field⟩ = parseFrom ⟨l, rest, acc ++ [t], .field⟩ := by
  cases h with
  | plain pad _ hpad hstart hdelim =>
    rw [parseFrom_eq]
    have ht : trimLeft (pad ++ t ++ ',' :: l) = t ++ ',' :: l := by
      rw [List.append_assoc, trimLeft_pad hpad]
      cases t with
      | nil => exact trimLeft_cons_false isSpace_comma l
      | cons c r => exact trimLeft_cons_false (hstart c r rfl) _
    have hhead : (t ++ ',' :: l).head? ≠ some '"' := by
      cases t with
      | nil => simp
      | cons c r => simp; intro h; subst h; simp at hdelim
    have : parseStep ⟨pad ++ t ++ ',' :: l, rest, acc, .field⟩ = .inl ⟨l, rest, acc ++ [t], .field⟩ := by
      unfold parseStep
      simp only [ht, if_neg hhead, cut_append hdelim.1, if_neg hdelim.2.1]
    rw [this]
  | quoted pad _ hpad hnl =>
    rw [parseFrom_eq]
    have : parseStep ⟨pad ++ '"' :: escapeQuotes t ++ ['"'] ++ ',' :: l, rest, acc, .field⟩ =
        .inl ⟨escapeQuotes t ++ '"' :: ',' :: l, rest, acc, .quoted []⟩ := by
      unfold parseStep
      have ht : trimLeft (pad ++ '"' :: escapeQuotes t ++ ['"'] ++ ',' :: l) =
          '"' :: (escapeQuotes t ++ '"' :: ',' :: l) := by
        rw [List.append_assoc, List.append_assoc, trimLeft_pad hpad]
        rw [List.cons_append, trimLeft_cons_false isSpace_quote]; simp
      simp only [ht, List.head?_cons, if_true, List.tail_cons]
    rw [this]
    simp only
    rw [parse_quoted, parseFrom_eq]
    have : parseStep ⟨'"' :: ',' :: l, rest, acc, .quoted ([] ++ t)⟩ = .inl ⟨l, rest, acc ++ [t], .field⟩ := by
      simp [parseStep, cut]
    rw [this]

/-- A last cell, the line terminated or not. -/
theorem parse_cell_last {t w : Str} (h : CellWritten t w) {nl : Str} (hnl' : nl = [] ∨ nl = ['\n']) (rest : Str)
    (acc : List Str) :
    parseFrom ⟨w ++ nl, rest, acc, .field⟩ = some (.ok (acc ++ [t], rest)) := by
  cases h with
  | plain pad _ hpad hstart hdelim =>
    rw [parseFrom_eq]
    have : parseStep ⟨pad ++ t ++ nl, rest, acc, .field⟩ = .inr (.ok (acc ++ [t], rest)) := by
      unfold parseStep
      simp only [List.append_assoc, trimLeft_pad hpad]
      cases t with
      | nil =>
        have : trimLeft ([] ++ nl) = [] := by rcases hnl' with rfl | rfl <;> decide
        rw [this]; simp [cut, chompNL]
      | cons c r =>
        rw [List.cons_append, trimLeft_cons_false (hstart c r rfl)]
        have h1 : (c :: (r ++ nl)).head? ≠ some '"' := by
          simp; intro h; subst h; simp at hdelim
        have h2 : cut ',' (c :: (r ++ nl)) = none := by
          rw [cut_eq_none_iff]
          have := hdelim.1
          rcases hnl' with rfl | rfl <;> simp_all
        have h3 : chompNL (c :: (r ++ nl)) = c :: r := by
          unfold chompNL
          rcases hnl' with rfl | rfl
          · simp only [List.append_nil]
            split
            · rename_i hg
              exact absurd (List.mem_of_getLast? hg) hdelim.2.2.1
            · rfl
          · have : (c :: (r ++ ['\n'])) = (c :: r) ++ ['\n'] := rfl
            rw [this]
            simp only [List.getLast?_append, List.getLast?_singleton, Option.some_or, List.dropLast_concat]
        rw [if_neg h1, h2]
        simp only [h3]
        rw [if_neg hdelim.2.1]
    rw [this]
  | quoted pad _ hpad hnl =>
    rw [parseFrom_eq]
    have : parseStep ⟨pad ++ '"' :: escapeQuotes t ++ ['"'] ++ nl, rest, acc, .field⟩ =
        .inl ⟨escapeQuotes t ++ '"' :: nl, rest, acc, .quoted []⟩ := by
      unfold parseStep
      have ht : trimLeft (pad ++ '"' :: escapeQuotes t ++ ['"'] ++ nl) =
          '"' :: (escapeQuotes t ++ '"' :: nl) := by
        rw [List.append_assoc, List.append_assoc, trimLeft_pad hpad]
        rw [List.cons_append, trimLeft_cons_false isSpace_quote]; simp
      simp only [ht, List.head?_cons, if_true, List.tail_cons]
    rw [this]
    simp only
    rw [parse_quoted, parseFrom_eq]
    have : parseStep ⟨'"' :: nl, rest, acc, .quoted ([] ++ t)⟩ = .inr (.ok (acc ++ [t], rest)) := by
      rcases hnl' with rfl | rfl <;> simp [parseStep, cut]
    rw [this]

theorem parse_row {r : List Str} {l : Str} (h : RowWritten r l) {nl : Str} (hnl : nl = [] ∨ nl = ['\n']) (rest : Str)
    (acc : List Str) : parseFrom ⟨l ++ nl, rest, acc, .field⟩ = some (.ok (acc ++ r, rest)) := by
  induction h generalizing acc with
  | last h => exact parse_cell_last h hnl rest acc
  | more h hs ih =>
    rw [List.append_assoc, List.cons_append, parse_cell_comma h, ih]; simp

theorem escapeQuotes_mem {c : Char} {t : Str} (h : c ∈ escapeQuotes t) : c ∈ t := by
  induction t with
  | nil => simp [escapeQuotes] at h
  | cons d t ih =>
    unfold escapeQuotes at h
    split at h
    · rename_i hd; subst hd
      simp only [List.mem_cons] at h ⊢
      rcases h with h | h | h
      · exact Or.inl h
      · exact Or.inl h
      · exact Or.inr (ih h)
    · simp only [List.mem_cons] at h ⊢
      exact h.imp_right ih

theorem cellWritten_noNL {t w : Str} (h : CellWritten t w) : '\n' ∉ w ∧ '\r' ∉ w := by
  cases h with
  | plain pad _ hpad hstart hdelim =>
    simp only [List.mem_append, not_or]
    exact ⟨⟨fun hm => (hpad _ hm).2.1 rfl, hdelim.2.2.1⟩, fun hm => (hpad _ hm).2.2 rfl, hdelim.2.2.2⟩
  | quoted pad _ hpad hnl =>
    have h1 : '\n' ∉ escapeQuotes t := fun hm => hnl.1 (escapeQuotes_mem hm)
    have h2 : '\r' ∉ escapeQuotes t := fun hm => hnl.2 (escapeQuotes_mem hm)
    have h3 : '\n' ∉ pad := fun hm => (hpad _ hm).2.1 rfl
    have h4 : '\r' ∉ pad := fun hm => (hpad _ hm).2.2 rfl
    simp [h1, h2, h3, h4]

theorem rowWritten_noNL {r : List Str} {l : Str} (h : RowWritten r l) : '\n' ∉ l ∧ '\r' ∉ l := by
  induction h with
  | last h => exact cellWritten_noNL h
  | more h hs ih =>
    have := cellWritten_noNL h
    simp [this, ih]

theorem recordStep_row {r : List Str} {l : Str} (h : RowWritten r l) (hne : l ≠ []) (hc : l.head? ≠ some '#')
    {s f nl : Str} (hr : readLine s = some (l ++ nl, f)) (hnl : nl = [] ∨ nl = ['\n']) :
    recordStep s = .inr (.record r f) := by
  unfold recordStep
  rw [hr]
  simp only
  rw [if_neg, if_neg, parseRecord_eq, parse_row h hnl]
  · simp
  · cases l with
    | nil => exact absurd rfl hne
    | cons c l =>
      rintro (h' | h')
      · simp at h'
      · simp at h'
        have := (rowWritten_noNL h).1
        rw [h'.1] at this; simp at this
  · cases l with
    | nil => exact absurd rfl hne
    | cons c l => simpa using hc

/-- A written file is read record by record. -/
theorem fileWritten_records {rows : List (List Str)} {file : Str} (h : FileWritten rows file) :
    CsvRecords file rows := by
  have step_eq : ∀ {s s' : Str}, recordStep s = .inl s' → ∀ {rows}, CsvRecords s' rows → CsvRecords s rows := by
    intro s s' hs rows hr
    have he : readRecord s = readRecord s' := by rw [readRecord_eq, hs]
    cases hr with
    | eof h => exact .eof (he.trans h)
    | cons h hs => exact .cons (he.trans h) hs
  induction h with
  | nil => exact .eof readRecord_nil
  | @final r l h hne hc =>
    have hl := rowWritten_noNL h
    refine .cons (rest := []) ?_ (.eof readRecord_nil)
    rw [readRecord_eq, recordStep_row h hne hc (nl := []) (f := []) (by simpa using readLine_final hl.1 hl.2 hne) (Or.inl rfl)]
  | @row r l e f rs h hne hc he hf ih =>
    have hl := rowWritten_noNL h
    refine .cons (rest := f) ?_ ih
    rw [readRecord_eq, recordStep_row h hne hc (readLine_line hl.1 hl.2 he f) (Or.inr rfl)]
  | comment hc hf ih => exact step_eq (recordStep_comment hc _) ih
  | blank he hf ih => exact step_eq (recordStep_blank he _) ih

/-! ### reading is compositional at line ends -/

/-- Nothing, or text ending in a line end. -/
def Terminated (s : Str) : Prop := s = [] ∨ ∃ a, s = a ++ ['\n']

theorem readLine_append {s l r : Str} (hs : Terminated s) (h : readLine s = some (l, r)) (x : Str) :
    readLine (s ++ x) = some (l, r ++ x) ∧ Terminated r := by
  rcases hs with rfl | ⟨a, rfl⟩
  · simp [readLine] at h
  · unfold readLine at h
    rw [if_neg (by simp)] at h
    cases hc : cut '\n' (a ++ ['\n']) with
    | none => rw [cut_eq_none_iff] at hc; simp at hc
    | some uv =>
      obtain ⟨u, v⟩ := uv
      rw [hc] at h
      simp only [Option.some.injEq, Prod.mk.injEq] at h
      obtain ⟨rfl, rfl⟩ := h
      rw [cut_eq_some_iff] at hc
      obtain ⟨hc1, hc2⟩ := hc
      constructor
      · rw [hc1, List.append_assoc, List.cons_append, readLine_nl hc2]
      · rcases List.eq_nil_or_concat v with rfl | ⟨v', c, rfl⟩
        · exact Or.inl rfl
        · right
          refine ⟨v', ?_⟩
          have h2 : u ++ '\n' :: (v' ++ [c]) = (u ++ '\n' :: v') ++ [c] := by simp
          rw [List.concat_eq_append, h2] at hc1
          have := (List.append_inj' hc1 rfl).2
          simp at this
          rw [← this]; simp

theorem parseFrom_append (s : PState) (x : Str) : ∀ row rest', Terminated s.rest →
    parseFrom s = some (.ok (row, rest')) →
    parseFrom { s with rest := s.rest ++ x } = some (.ok (row, rest' ++ x)) ∧ Terminated rest' := by
  induction s using pstate_induction with
  | h s ih =>
    intro row rest' hterm h
    rw [parseFrom_eq] at h
    obtain ⟨line, rest, acc, mode⟩ := s
    rw [parseFrom_eq]
    cases hs : parseStep ⟨line, rest, acc, mode⟩ with
    | inr r =>
      rw [hs] at h
      cases h
      obtain ⟨hrr, f, rfl⟩ := parseStep_done hs
      simp only at hrr hterm
      subst hrr
      refine ⟨?_, hterm⟩
      have : parseStep ⟨line, rest' ++ x, acc, mode⟩ = .inr (.ok (acc ++ [f], rest' ++ x)) := by
        unfold parseStep at hs ⊢
        cases mode with
        | field =>
          simp only at hs ⊢
          split
          · rename_i hh; rw [if_pos hh] at hs; cases hs
          · rename_i hh; rw [if_neg hh] at hs
            split
            · rename_i hcc
              rw [hcc] at hs
              simp only at hs
              split at hs <;> simp [throwErr] at hs
            · rename_i hcc
              rw [hcc] at hs
              simp only at hs
              split at hs
              · simp [throwErr] at hs
              · rename_i hq
                rw [if_neg hq]; simp at hs; simp [hs]
        | quoted buf =>
          simp only at hs ⊢
          split
          · rename_i hcc
            rw [hcc] at hs
            simp only at hs
            split at hs
            · cases hs
            · rename_i h1
              rw [if_neg h1]
              split at hs
              · cases hs
              · rename_i h2
                rw [if_neg h2]
                split at hs
                · rename_i h3
                  rw [if_pos h3]; simp at hs; simp [hs]
                · simp [throwErr] at hs
          · rename_i hcc
            rw [hcc] at hs
            simp only at hs
            split at hs
            · simp [throwErr] at hs
            · split at hs <;> cases hs
      simp only at this ⊢
      rw [this]
    | inl s' =>
      rw [hs] at h
      simp only at h
      have key : parseStep ⟨line, rest ++ x, acc, mode⟩ = .inl { s' with rest := s'.rest ++ x } ∧ Terminated s'.rest := by
        unfold parseStep at hs ⊢
        cases mode with
        | field =>
          simp only at hs ⊢
          split
          · rename_i hh; rw [if_pos hh] at hs; cases hs; exact ⟨rfl, hterm⟩
          · rename_i hh; rw [if_neg hh] at hs
            split
            · rename_i hcc
              rw [hcc] at hs
              simp only at hs
              split at hs
              · cases hs
              · rename_i hq
                rw [if_neg hq]; cases hs; exact ⟨rfl, hterm⟩
            · rename_i hcc
              rw [hcc] at hs
              simp only at hs
              split at hs <;> cases hs
        | quoted buf =>
          simp only at hs ⊢
          split
          · rename_i hcc
            rw [hcc] at hs
            simp only at hs
            split at hs
            · rename_i h1; rw [if_pos h1]; cases hs; exact ⟨rfl, hterm⟩
            · rename_i h1
              rw [if_neg h1]
              split at hs
              · rename_i h2; rw [if_pos h2]; cases hs; exact ⟨rfl, hterm⟩
              · split at hs <;> cases hs
          · rename_i hcc
            rw [hcc] at hs
            simp only at hs
            split at hs
            · cases hs
            · rename_i hl
              rw [if_neg hl]
              split at hs
              · -- the end of the input inside a quoted field: an error
                cases hs
                rw [parseFrom_eq] at h
                simp [parseStep, cut, throwErr] at h
              · rename_i l r hrl
                cases hs
                obtain ⟨h1, h2⟩ := readLine_append hterm hrl x
                rw [h1]
                exact ⟨rfl, h2⟩
      rw [key.1]
      exact ih s' hs row rest' key.2 h

theorem readRecord_append_record {s : Str} (x : Str) : ∀ {row rest}, Terminated s →
    readRecord s = some (.record row rest) →
    readRecord (s ++ x) = some (.record row (rest ++ x)) ∧ Terminated rest := by
  induction hn : s.length using Nat.strongRecOn generalizing s with
  | ind n ih =>
    intro row rest hterm h
    rw [readRecord_eq] at h
    rw [readRecord_eq]
    cases hs : recordStep s with
    | inl s' =>
      rw [hs] at h
      have hlt := recordStep_size s s' hs
      unfold recordStep at hs
      cases hrl : readLine s with
      | none => rw [hrl] at hs; cases hs
      | some lr =>
        obtain ⟨l, r⟩ := lr
        rw [hrl] at hs
        obtain ⟨h1, h2⟩ := readLine_append hterm hrl x
        simp only at hs h
        have : recordStep (s ++ x) = .inl (s' ++ x) ∧ Terminated s' := by
          unfold recordStep
          rw [h1]
          simp only
          split at hs
          · rename_i hc; rw [if_pos hc]; cases hs; exact ⟨rfl, h2⟩
          · rename_i hc; rw [if_neg hc]
            split at hs
            · rename_i hb; rw [if_pos hb]; cases hs; exact ⟨rfl, h2⟩
            · split at hs <;> cases hs
        rw [this.1]
        exact ih s'.length (by omega) rfl this.2 h
    | inr r =>
      rw [hs] at h
      cases h
      unfold recordStep at hs
      cases hrl : readLine s with
      | none => rw [hrl] at hs; cases hs
      | some lr =>
        obtain ⟨l, r⟩ := lr
        rw [hrl] at hs
        obtain ⟨h1, h2⟩ := readLine_append hterm hrl x
        simp only at hs
        split at hs
        · cases hs
        · rename_i hc
          split at hs
          · cases hs
          · rename_i hb
            split at hs
            · cases hs
            · cases hs
            · rename_i row' rest' hp
              cases hs
              rw [parseRecord_eq] at hp
              obtain ⟨h3, h4⟩ := parseFrom_append ⟨l, r, [], .field⟩ x _ _ h2 hp
              refine ⟨?_, h4⟩
              have : recordStep (s ++ x) = .inr (.record row (rest ++ x)) := by
                unfold recordStep
                rw [h1]
                simp only
                rw [if_neg hc, if_neg hb, parseRecord_eq, h3]
              rw [this]

theorem readRecord_append_eof {s : Str} (x : Str) : Terminated s → readRecord s = some .eof →
    readRecord (s ++ x) = readRecord x := by
  induction hn : s.length using Nat.strongRecOn generalizing s with
  | ind n ih =>
    intro hterm h
    rw [readRecord_eq] at h
    cases hs : recordStep s with
    | inl s' =>
      rw [hs] at h
      have hlt := recordStep_size s s' hs
      unfold recordStep at hs
      cases hrl : readLine s with
      | none => rw [hrl] at hs; cases hs
      | some lr =>
        obtain ⟨l, r⟩ := lr
        rw [hrl] at hs
        obtain ⟨h1, h2⟩ := readLine_append hterm hrl x
        simp only at hs h
        have : recordStep (s ++ x) = .inl (s' ++ x) ∧ Terminated s' := by
          unfold recordStep
          rw [h1]
          simp only
          split at hs
          · rename_i hc; rw [if_pos hc]; cases hs; exact ⟨rfl, h2⟩
          · rename_i hc; rw [if_neg hc]
            split at hs
            · rename_i hb; rw [if_pos hb]; cases hs; exact ⟨rfl, h2⟩
            · split at hs <;> cases hs
        rw [readRecord_eq, this.1]
        exact ih s'.length (by omega) rfl this.2 h
    | inr r =>
      rw [hs] at h
      cases h
      unfold recordStep at hs
      cases hrl : readLine s with
      | none =>
        unfold readLine at hrl
        split at hrl
        · rename_i he; subst he; simp
        · split at hrl <;> cases hrl
      | some lr =>
        rw [hrl] at hs
        simp only at hs
        split at hs
        · cases hs
        · split at hs
          · cases hs
          · split at hs <;> cases hs

theorem csvRecords_append {s : Str} {rows : List (List Str)} (hs : CsvRecords s rows) (ht : Terminated s) :
    ∃ u, ∀ x, CsvSteps (s ++ x) rows (u ++ x) ∧ readRecord (u ++ x) = readRecord x := by
  induction hs with
  | @eof s h => exact ⟨s, fun x => ⟨.nil, readRecord_append_eof x ht h⟩⟩
  | cons h hs ih =>
    obtain ⟨u, hu⟩ := ih (readRecord_append_record [] ht h).2
    exact ⟨u, fun x => ⟨.cons (readRecord_append_record x ht h).1 (hu x).1, (hu x).2⟩⟩

/-- Without quotes every record parses. -/
theorem parseFrom_noQuote (s : PState) (hm : s.mode = .field) (hq : '"' ∉ s.line) :
    ∃ r, parseFrom s = some (.ok r) ∧ r.2 = s.rest := by
  induction s using pstate_induction with
  | h s ih =>
    obtain ⟨line, rest, acc, mode⟩ := s
    simp only at hm hq
    subst hm
    have hq' : '"' ∉ trimLeft line := fun h => hq ((List.dropWhile_suffix white).subset (trimLeft_def line ▸ h))
    rw [parseFrom_eq]
    unfold parseStep
    simp only
    have hhead : (trimLeft line).head? ≠ some '"' := by
      intro h
      exact hq' (List.mem_of_head? h)
    rw [if_neg hhead]
    cases hc : cut ',' (trimLeft line) with
    | none =>
      simp only
      have : '"' ∉ chompNL (trimLeft line) := by
        intro h
        unfold chompNL at h
        split at h
        · exact hq' (List.dropLast_subset _ h)
        · exact hq' h
      rw [if_neg this]
      exact ⟨_, rfl, rfl⟩
    | some fl =>
      obtain ⟨f, l⟩ := fl
      have hc' := (cut_eq_some_iff _ _ _ _).1 hc
      rw [hc'.1] at hq'
      simp only [List.mem_append, List.mem_cons, not_or] at hq'
      simp only
      rw [if_neg hq'.1]
      simp only
      have hstep : parseStep ⟨line, rest, acc, .field⟩ = .inl ⟨l, rest, acc ++ [f], .field⟩ := by
        unfold parseStep
        simp only
        rw [if_neg hhead, hc]
        simp only
        rw [if_neg hq'.1]
      exact ih _ hstep rfl hq'.2.2

theorem dropCR_subset {c : Char} {l : Str} (h : c ∈ dropCR l) : c ∈ l := by
  unfold dropCR at h
  split at h
  · exact List.dropLast_subset _ h
  · exact h

theorem readLine_subset {s l r : Str} (h : readLine s = some (l, r)) {c : Char} (hc : c ≠ '\n') :
    (c ∈ l → c ∈ s) ∧ (c ∈ r → c ∈ s) := by
  unfold readLine at h
  split at h
  · cases h
  · split at h
    · rename_i a rest hcut
      simp at h; obtain ⟨rfl, rfl⟩ := h
      rw [(cut_eq_some_iff _ _ _ _).1 hcut |>.1]
      simp only [List.mem_append, List.mem_cons, List.not_mem_nil, or_false]
      refine ⟨?_, fun h => Or.inr (Or.inr h)⟩
      rintro (h | h)
      · exact Or.inl (dropCR_subset h)
      · exact absurd h hc
    · simp at h; obtain ⟨rfl, rfl⟩ := h
      exact ⟨dropCR_subset, by simp⟩

theorem csvRecords_noQuote (s : Str) (hq : '"' ∉ s) : ∃ rows, CsvRecords s rows := by
  induction hn : s.length using Nat.strongRecOn generalizing s with
  | ind n ih =>
    cases hrl : readLine s with
    | none => exact ⟨[], .eof (by rw [readRecord_eq]; unfold recordStep; rw [hrl])⟩
    | some lr =>
      obtain ⟨l, r⟩ := lr
      have hlen := (readLine_length hrl).2
      have hsub := readLine_subset hrl (c := '"') (by decide)
      have hr : '"' ∉ r := fun h => hq (hsub.2 h)
      have hl : '"' ∉ l := fun h => hq (hsub.1 h)
      obtain ⟨rows, hrows⟩ := ih r.length (by omega) r hr rfl
      have hstep : recordStep s = .inl r ∨ ∃ row, recordStep s = .inr (.record row r) := by
        unfold recordStep
        rw [hrl]
        simp only
        split
        · exact Or.inl rfl
        · split
          · exact Or.inl rfl
          · obtain ⟨⟨row, rest'⟩, h1, h2⟩ := parseFrom_noQuote ⟨l, r, [], .field⟩ rfl hl
            rw [parseRecord_eq, h1]
            simp only at h2
            exact Or.inr ⟨row, by rw [h2]⟩
      rcases hstep with hs | ⟨row, hs⟩
      · have he : readRecord s = readRecord r := by rw [readRecord_eq, hs]
        refine ⟨rows, ?_⟩
        cases hrows with
        | eof h => exact .eof (he.trans h)
        | cons h h' => exact .cons (he.trans h) h'
      · exact ⟨row :: rows, .cons (by rw [readRecord_eq, hs]) hrows⟩

end Csv

namespace Forbidden

theorem read_ok_iff (s : Str) (ts : List Forbidden) :
    read s = some (.ok ts) ↔ ∃ rows, CsvRecords s rows ∧ List.Forall₂ RowDenotes rows ts := by
  constructor
  · intro h
    induction hn : s.length using Nat.strongRecOn generalizing s ts with
    | ind n ih =>
      rw [read_cases] at h
      cases hr : Csv.readRecord s with
      | none => rw [hr] at h; cases h
      | some r =>
        rw [hr] at h
        cases r with
        | eof => cases h; exact ⟨[], .eof hr, .nil⟩
        | bad f => cases h
        | record row rest =>
          have hlt := (Csv.readRecord_record hr).1
          simp only at h
          cases hp : parseRow row with
          | error f => rw [hp] at h; cases h
          | ok t =>
            rw [hp] at h
            simp only at h
            cases hread : read rest with
            | none => rw [hread] at h; cases h
            | some q =>
              rw [hread] at h
              cases q with
              | error f => simp [Except.map] at h
              | ok ts' =>
                simp only [Option.map_some, Except.map, Option.some.injEq, Except.ok.injEq] at h
                subst h
                obtain ⟨rows, h1, h2⟩ := ih rest.length (by omega) rest ts' hread rfl
                exact ⟨row :: rows, .cons hr h1, .cons ((parseRow_ok_iff _ _).1 hp) h2⟩
  · rintro ⟨rows, h1, h2⟩
    induction h1 generalizing ts with
    | eof h => cases h2; rw [read_cases, h]
    | cons h hs ih =>
      cases h2 with
      | cons hd htl =>
        rw [read_cases, h]
        simp only
        rw [(parseRow_ok_iff _ _).2 hd]
        simp only
        rw [ih _ htl]; rfl

theorem read_steps {s s' : Str} {rows : List (List Str)} (h : CsvSteps s rows s') :
    read s = match rows.mapM parseRow with
      | .error f => some (.error f)
      | .ok ts => (read s').map (fun r => r.map (fun ts' => ts ++ ts')) := by
  induction h with
  | nil =>
    simp only [List.mapM_nil, pure, Except.pure]
    cases read _ with
    | none => rfl
    | some r => cases r <;> simp [Except.map]
  | cons h hs ih =>
    rw [read_cases, h]
    simp only [List.mapM_cons, bind, Except.bind]
    cases hp : parseRow _ with
    | error f => rfl
    | ok t =>
      simp only
      rw [ih]
      cases List.mapM parseRow _ with
      | error f => rfl
      | ok ts =>
        simp only [pure, Except.pure]
        cases read _ with
        | none => rfl
        | some r => cases r <;> simp [Except.map]

theorem read_congr {s s' : Str} (h : Csv.readRecord s = Csv.readRecord s') : read s = read s' := by
  rw [read_cases, h, ← read_cases]

/-- What is read from a file made of complete records and any continuation depends on the continuation only
through what is read from it. -/
theorem read_append {a : Str} {rows : List (List Str)} (ha : CsvRecords a rows) (ht : Csv.Terminated a) {x y : Str}
    (h : Csv.readRecord x = Csv.readRecord y) : read (a ++ x) = read (a ++ y) := by
  obtain ⟨u, hu⟩ := Csv.csvRecords_append ha ht
  rw [read_steps (hu x).1, read_steps (hu y).1, read_congr ((hu x).2.trans (h.trans (hu y).2.symm))]

end Forbidden

end Rtcg
