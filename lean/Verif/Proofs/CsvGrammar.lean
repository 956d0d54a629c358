import Verif.Spec.CsvGrammar
import Verif.Proofs.CsvFile

namespace Rtcg
open Rtcg.Spec

namespace Csv

/-! ### lines -/

/-- The unread part of a line, with what follows it. -/
def LineOK (line rest : Str) : Prop := (∃ a, line = a ++ ['\n'] ∧ '\n' ∉ a) ∨ ('\n' ∉ line ∧ rest = [])

theorem dropCR_cons_cons (c d : Char) (s : Str) : dropCR (c :: d :: s) = c :: dropCR (d :: s) := by
  unfold dropCR
  rw [List.getLast?_cons_cons]
  split <;> simp

theorem dropCR_single (c : Char) : dropCR [c] = if c = '\r' then [] else [c] := by
  unfold dropCR
  simp only [List.getLast?_singleton]
  split
  · rename_i h; cases h; rfl
  · rename_i h
    rw [if_neg]; intro e; exact h (by rw [e])

theorem normalEols_line (a r : Str) (h : '\n' ∉ a) : normalEols (a ++ '\n' :: r) = dropCR a ++ '\n' :: normalEols r := by
  induction a with
  | nil =>
    cases r with
    | nil => simp [normalEols, dropCR]
    | cons d r => simp [normalEols, dropCR]
  | cons c a ih =>
    cases a with
    | nil =>
      rw [dropCR_single]
      simp only [List.cons_append, List.nil_append, normalEols, and_true]
      by_cases hc : c = '\r'
      · simp [hc]
      · rw [if_neg hc, if_neg hc]
        have := ih (by simp)
        simp only [List.nil_append] at this
        rw [this]; rfl
    | cons d a =>
      simp only [List.mem_cons, not_or] at h
      rw [dropCR_cons_cons]
      simp only [List.cons_append, normalEols]
      rw [if_neg (fun e => h.2.1 e.2.symm)]
      have := ih (by simp only [List.mem_cons, not_or]; exact h.2)
      simp only [List.cons_append] at this
      rw [this]

theorem normalEols_final (a : Str) (h : '\n' ∉ a) : normalEols a = dropCR a := by
  induction a with
  | nil => rfl
  | cons c a ih =>
    cases a with
    | nil => rw [dropCR_single]; rfl
    | cons d a =>
      simp only [List.mem_cons, not_or] at h
      rw [dropCR_cons_cons]
      simp only [normalEols]
      rw [if_neg (fun e => h.2.1 e.2.symm), ih (by simp only [List.mem_cons, not_or]; exact h.2)]

theorem dropCR_mem {c : Char} {a : Str} (h : c ∈ dropCR a) : c ∈ a := dropCR_subset h

theorem readLine_normal {s l r : Str} (h : readLine s = some (l, r)) : normalEols s = l ++ normalEols r ∧ LineOK l r := by
  unfold readLine at h
  split at h
  · cases h
  · cases hc : cut '\n' s with
    | none =>
      rw [hc] at h
      simp at h
      obtain ⟨rfl, rfl⟩ := h
      rw [cut_eq_none_iff] at hc
      exact ⟨by rw [normalEols_final s hc]; simp [normalEols], .inr ⟨fun h => hc (dropCR_mem h), rfl⟩⟩
    | some ab =>
      obtain ⟨a, b⟩ := ab
      rw [hc] at h
      simp at h
      obtain ⟨rfl, rfl⟩ := h
      rw [cut_eq_some_iff] at hc
      exact ⟨by rw [hc.1, normalEols_line a b hc.2]; simp, .inl ⟨_, rfl, fun h => hc.2 (dropCR_mem h)⟩⟩

theorem readLine_isSome {s : Str} (h : normalEols s ≠ []) : ∃ l r, readLine s = some (l, r) := by
  have hs : s ≠ [] := by rintro rfl; exact h rfl
  unfold readLine
  rw [if_neg hs]
  cases cut '\n' s with
  | none => exact ⟨_, _, rfl⟩
  | some ab => exact ⟨_, _, rfl⟩

theorem LineOK.tail {c : Char} {l rest : Str} (h : LineOK (c :: l) rest) : LineOK l rest ∨ (l = [] ∧ c = '\n') := by
  rcases h with ⟨a, ha, hn⟩ | ⟨hn, hr⟩
  · cases a with
    | nil => simp at ha; exact .inr ⟨ha.2, ha.1⟩
    | cons d a =>
      simp at ha
      exact .inl (.inl ⟨a, ha.2, fun h => hn (List.mem_cons_of_mem _ h)⟩)
  · exact .inl (.inr ⟨fun h => hn (List.mem_cons_of_mem _ h), hr⟩)

theorem LineOK.nil {rest : Str} (h : LineOK [] rest) : rest = [] := by
  rcases h with ⟨a, ha, _⟩ | ⟨_, hr⟩
  · cases a <;> simp at ha
  · exact hr

theorem LineOK.append {a l rest : Str} (h : LineOK (a ++ l) rest) (hl : l ≠ []) : LineOK l rest ∧ '\n' ∉ a := by
  induction a with
  | nil => exact ⟨h, by simp⟩
  | cons c a ih =>
    have hc : c ≠ '\n' := by
      rintro rfl
      rcases h with ⟨b, hb, hn⟩ | ⟨hn, _⟩
      · cases b with
        | nil => simp at hb; exact hl hb.2
        | cons d b => simp at hb; exact hn (by simp [← hb.1])
      · exact hn (by simp)
    rcases h.tail with h | ⟨h, _⟩
    · obtain ⟨h1, h2⟩ := ih h
      exact ⟨h1, by simp only [List.mem_cons, not_or]; exact ⟨fun e => hc e.symm, h2⟩⟩
    · simp at h; exact absurd h.2 hl

/-- In the unread part of a line, a line end is the end of the line. -/
theorem LineOK.split {line rest x y : Str} (h : LineOK line rest) (hx : '\n' ∉ x) (he : line ++ normalEols rest = x ++ '\n' :: y) :
    line = x ++ ['\n'] ∧ normalEols rest = y := by
  rcases h with ⟨a, rfl, ha⟩ | ⟨hn, rfl⟩
  · have : a ++ '\n' :: normalEols rest = x ++ '\n' :: y := by simpa using he
    have h1 := cut_append (sep := '\n') ha (b := normalEols rest)
    rw [this, cut_append hx] at h1
    simp at h1
    exact ⟨by rw [h1.1], h1.2.symm⟩
  · simp [normalEols] at he
    rw [he] at hn; simp at hn

/-! ### rows: what the grammar describes is read -/

/-- Where a row ends: before a line end, or at the end of the file. -/
def RowEnd (tail after : Str) : Prop := tail = [] ∧ after = [] ∨ tail = '\n' :: after

theorem parse_quoted_next {c : Char} (hc : c ≠ '"') {rest l r : Str} (hr : readLine rest = some (l, r)) (acc : List Str) (buf : Str) :
    parseFrom ⟨[c], rest, acc, .quoted buf⟩ = parseFrom ⟨l, r, acc, .quoted (buf ++ [c])⟩ := by
  rw [parseFrom_eq]
  have : parseStep ⟨[c], rest, acc, .quoted buf⟩ = .inl ⟨l, r, acc, .quoted (buf ++ [c])⟩ := by
    unfold parseStep
    have hcut : cut '"' [c] = none := by rw [cut_eq_none_iff]; simp; exact fun e => hc e.symm
    simp only [hcut]
    rw [if_neg (by simp)]
    simp only [hr]
  rw [this]

theorem parse_quoted_char' {c : Char} (hc : c ≠ '"') {L : Str} (hL : L ≠ []) (rest : Str) (acc : List Str) (buf : Str) :
    parseFrom ⟨c :: L, rest, acc, .quoted buf⟩ = parseFrom ⟨L, rest, acc, .quoted (buf ++ [c])⟩ := by
  by_cases hq : '"' ∈ L
  · exact parse_quoted_char hc hq rest acc buf
  · rw [parseFrom_eq, parseFrom_eq ⟨L, rest, acc, .quoted (buf ++ [c])⟩]
    have : parseStep ⟨c :: L, rest, acc, .quoted buf⟩ = parseStep ⟨L, rest, acc, .quoted (buf ++ [c])⟩ := by
      unfold parseStep
      have h1 : cut '"' (c :: L) = none := by
        rw [cut_eq_none_iff]; simp only [List.mem_cons, not_or]; exact ⟨fun e => hc e.symm, hq⟩
      have h2 : cut '"' L = none := by rw [cut_eq_none_iff]; exact hq
      simp only [h1, h2]
      rw [if_neg (by simp), if_neg hL]
      cases readLine rest <;> simp
    rw [this]

/-- The body of a quoted cell, over any number of lines. -/
theorem parse_body (t tail : Str) (acc : List Str) : ∀ (line rest buf : Str), LineOK line rest →
    line ++ normalEols rest = escapeQuotes t ++ '"' :: tail →
    ∃ line' rest', LineOK line' rest' ∧ line' ≠ [] ∧ line' ++ normalEols rest' = '"' :: tail ∧
      parseFrom ⟨line, rest, acc, .quoted buf⟩ = parseFrom ⟨line', rest', acc, .quoted (buf ++ t)⟩ := by
  induction t with
  | nil =>
    intro line rest buf hl he
    have : line ≠ [] := by
      rintro rfl
      rw [hl.nil] at he; simp [normalEols, escapeQuotes] at he
    exact ⟨line, rest, hl, this, he, by simp⟩
  | cons c t ih =>
    intro line rest buf hl he
    cases line with
    | nil =>
      rw [hl.nil] at he
      simp only [normalEols, List.append_nil] at he
      have := congrArg List.length he
      simp at this
    | cons x L =>
      unfold escapeQuotes at he
      by_cases hc : c = '"'
      · subst hc
        rw [if_pos rfl] at he
        simp only [List.cons_append, List.cons.injEq] at he
        obtain ⟨rfl, he⟩ := he
        cases L with
        | nil =>
          rcases hl.tail with h | ⟨_, h⟩
          · rw [h.nil] at he; simp [normalEols] at he
          · exact absurd h (by decide)
        | cons y L =>
          simp only [List.cons_append, List.cons.injEq] at he
          obtain ⟨rfl, he⟩ := he
          have hl1 : LineOK ('"' :: L) rest := by
            rcases hl.tail with h | ⟨h, _⟩
            · exact h
            · cases h
          have hl2 : LineOK L rest := by
            rcases hl1.tail with h | ⟨_, h⟩
            · exact h
            · exact absurd h (by decide)
          obtain ⟨l', r', h1, h2, h3, h4⟩ := ih L rest (buf ++ ['"']) hl2 he
          refine ⟨l', r', h1, h2, h3, ?_⟩
          rw [parse_quoted_quote, h4]; simp
      · rw [if_neg hc] at he
        simp only [List.cons_append, List.cons.injEq] at he
        obtain ⟨rfl, he⟩ := he
        cases L with
        | nil =>
          have hne : normalEols rest ≠ [] := by
            intro e; rw [e] at he
            have := congrArg List.length he
            simp at this
          obtain ⟨l, r, hr⟩ := readLine_isSome hne
          obtain ⟨hn, hlr⟩ := readLine_normal hr
          rw [List.nil_append, hn] at he
          obtain ⟨l', r', h1, h2, h3, h4⟩ := ih l r (buf ++ [x]) hlr he
          refine ⟨l', r', h1, h2, h3, ?_⟩
          rw [parse_quoted_next hc hr, h4]; simp
        | cons y L =>
          have hl1 : LineOK (y :: L) rest := by
            rcases hl.tail with h | ⟨h, _⟩
            · exact h
            · cases h
          obtain ⟨l', r', h1, h2, h3, h4⟩ := ih (y :: L) rest (buf ++ [x]) hl1 he
          refine ⟨l', r', h1, h2, h3, ?_⟩
          rw [parse_quoted_char' hc (by simp), h4]; simp

theorem trimLeft_white {pad s : Str} (hpad : ∀ c ∈ pad, white c = true ∧ c ≠ '\n') : trimLeft (pad ++ s) = trimLeft s :=
  trimLeft_append_space fun c hc => (hpad c hc).1

/-- A text without line ends at the start of the unread input is in the unread part of the line. -/
theorem LineOK.take {line rest x y : Str} (h : LineOK line rest) (hx : '\n' ∉ x) (he : line ++ normalEols rest = x ++ y) :
    ∃ l, line = x ++ l ∧ l ++ normalEols rest = y ∧ (LineOK l rest ∨ l = []) := by
  induction x generalizing line with
  | nil => exact ⟨line, rfl, he, .inl h⟩
  | cons c x ih =>
    simp only [List.mem_cons, not_or] at hx
    cases line with
    | nil => rw [h.nil] at he; simp [normalEols] at he
    | cons d line =>
      simp only [List.cons_append, List.cons.injEq] at he
      obtain ⟨rfl, he⟩ := he
      rcases h.tail with h | ⟨_, h⟩
      · obtain ⟨l, h1, h2, h3⟩ := ih h hx.2 he
        exact ⟨l, by rw [h1]; rfl, h2, h3⟩
      · exact absurd h.symm hx.1

theorem LineOK.take' {line rest x y : Str} (h : LineOK line rest) (hx : '\n' ∉ x) (he : line ++ normalEols rest = x ++ y) :
    ∃ l, line = x ++ l ∧ l ++ normalEols rest = y ∧ LineOK l rest := by
  obtain ⟨l, h1, h2, h3⟩ := h.take hx he
  refine ⟨l, h1, h2, ?_⟩
  rcases h3 with h3 | rfl
  · exact h3
  · rw [h1, List.append_nil] at h
    rcases h with ⟨a, rfl, _⟩ | ⟨h, rfl⟩
    · simp at hx
    · exact .inr ⟨by simp, rfl⟩

theorem step_open {pad l rest : Str} (hpad : ∀ c ∈ pad, white c = true ∧ c ≠ '\n') (acc : List Str) :
    parseFrom ⟨pad ++ '"' :: l, rest, acc, .field⟩ = parseFrom ⟨l, rest, acc, .quoted []⟩ := by
  rw [parseFrom_eq]
  have : parseStep ⟨pad ++ '"' :: l, rest, acc, .field⟩ = .inl ⟨l, rest, acc, .quoted []⟩ := by
    unfold parseStep
    simp only [trimLeft_white hpad, trimLeft_cons_false isSpace_quote, List.head?_cons, if_true, List.tail_cons]
  rw [this]

theorem pad_noNL {pad : Str} (hpad : ∀ c ∈ pad, white c = true ∧ c ≠ '\n') : '\n' ∉ pad := fun h => (hpad _ h).2 rfl

/-- A cell and a comma. -/
theorem read_cell_comma {t w : Str} (h : CellText t w) {line rest : Str} (hl : LineOK line rest) {y : Str}
    (he : line ++ normalEols rest = w ++ ',' :: y) (acc : List Str) :
    ∃ line' rest', LineOK line' rest' ∧ line' ++ normalEols rest' = y ∧
      parseFrom ⟨line, rest, acc, .field⟩ = parseFrom ⟨line', rest', acc ++ [t], .field⟩ := by
  cases h with
  | plain pad _ hpad hstart hdelim =>
    have he' : line ++ normalEols rest = (pad ++ t ++ [',']) ++ y := by rw [he]; simp
    obtain ⟨l, rfl, h2, h3⟩ := hl.take' (by simp [pad_noNL hpad, hdelim.2.2]) he'
    refine ⟨l, rest, h3, h2, ?_⟩
    rw [parseFrom_eq]
    have hx : pad ++ t ++ [','] ++ l = pad ++ (t ++ ',' :: l) := by simp
    have ht : trimLeft (pad ++ (t ++ ',' :: l)) = t ++ ',' :: l := by
      rw [trimLeft_white hpad]
      cases t with
      | nil => exact trimLeft_cons_false isSpace_comma l
      | cons c r => exact trimLeft_cons_false (hstart c r rfl) _
    have hhead : (t ++ ',' :: l).head? ≠ some '"' := by
      cases t with
      | nil => simp
      | cons c r => simp; intro h; subst h; simp at hdelim
    have : parseStep ⟨pad ++ t ++ [','] ++ l, rest, acc, .field⟩ = .inl ⟨l, rest, acc ++ [t], .field⟩ := by
      rw [hx]
      unfold parseStep
      simp only [ht, if_neg hhead, cut_append hdelim.1, if_neg hdelim.2.1]
    rw [this]
  | quoted pad _ hpad =>
    have he' : line ++ normalEols rest = (pad ++ ['"']) ++ (escapeQuotes t ++ '"' :: ',' :: y) := by rw [he]; simp
    obtain ⟨l, rfl, h2, h3⟩ := hl.take' (by simp [pad_noNL hpad]) he'
    obtain ⟨l', r', k1, k2, k3, k4⟩ := parse_body t (',' :: y) acc l rest [] h3 h2
    obtain ⟨l'', rfl, m2, m3⟩ := k1.take' (x := ['"', ',']) (by simp) k3
    refine ⟨l'', r', m3, m2, ?_⟩
    rw [show pad ++ ['"'] ++ l = pad ++ '"' :: l by simp, step_open hpad, k4, parseFrom_eq]
    have : parseStep ⟨['"', ','] ++ l'', r', acc, .quoted ([] ++ t)⟩ = .inl ⟨l'', r', acc ++ [t], .field⟩ := by
      simp [parseStep, cut]
    rw [this]

/-- A cell at the end of a row. -/
theorem read_cell_last {t w : Str} (h : CellText t w) {line rest : Str} (hl : LineOK line rest) {tail after : Str}
    (ht : RowEnd tail after) (he : line ++ normalEols rest = w ++ tail) (acc : List Str) :
    ∃ rest', normalEols rest' = after ∧ parseFrom ⟨line, rest, acc, .field⟩ = some (.ok (acc ++ [t], rest')) := by
  have hend : ∀ l r : Str, LineOK l r → l ++ normalEols r = tail → (l = [] ∨ l = ['\n']) ∧ normalEols r = after := by
    intro l r h h'
    rcases ht with ⟨rfl, rfl⟩ | rfl
    · obtain ⟨h1, h2⟩ := List.append_eq_nil_iff.1 h'
      exact ⟨.inl h1, h2⟩
    · obtain ⟨h1, h2⟩ := h.split (x := []) (by simp) h'
      exact ⟨.inr h1, h2⟩
  cases h with
  | plain pad _ hpad hstart hdelim =>
    obtain ⟨l, rfl, h2, h3⟩ := hl.take' (x := pad ++ t) (by simp [pad_noNL hpad, hdelim.2.2]) he
    obtain ⟨hl', ha⟩ := hend l rest h3 h2
    refine ⟨rest, ha, ?_⟩
    rw [parseFrom_eq]
    have hstep : parseStep ⟨pad ++ t ++ l, rest, acc, .field⟩ = .inr (.ok (acc ++ [t], rest)) := by
      unfold parseStep
      rw [List.append_assoc]
      simp only [trimLeft_white hpad]
      cases t with
      | nil =>
        rcases hl' with rfl | rfl
        · simp [trimLeft_def, cut, chompNL]
        · simp [trimLeft_def, cut, chompNL, isSpace_nl]
      | cons c r =>
        have hh : (c :: r ++ l).head? ≠ some '"' := by
          simp; intro h; subst h; simp at hdelim
        have hcut : cut ',' (c :: r ++ l) = none := by
          rw [cut_eq_none_iff]
          rcases hl' with rfl | rfl
          · simpa using hdelim.1
          · simp only [List.mem_append, not_or]
            exact ⟨hdelim.1, by decide⟩
        have hch : chompNL (c :: r ++ l) = c :: r := by
          unfold chompNL
          rcases hl' with rfl | rfl
          · rw [List.append_nil]
            split
            · rename_i h; exact absurd (List.mem_of_getLast? h) hdelim.2.2
            · rfl
          · rw [List.getLast?_append]; simp only [List.getLast?_singleton, Option.or_some]; exact List.dropLast_concat
        rw [show trimLeft (c :: r ++ l) = c :: r ++ l from trimLeft_cons_false (hstart c r rfl) _]
        simp only [if_neg hh, hcut, hch, if_neg hdelim.2.1]
    rw [hstep]
  | quoted pad _ hpad =>
    have he' : line ++ normalEols rest = (pad ++ ['"']) ++ (escapeQuotes t ++ '"' :: tail) := by rw [he]; simp
    obtain ⟨l, rfl, h2, h3⟩ := hl.take' (by simp [pad_noNL hpad]) he'
    obtain ⟨l', r', k1, k2, k3, k4⟩ := parse_body t tail acc l rest [] h3 h2
    obtain ⟨l'', rfl, m2, m3⟩ := k1.take' (x := ['"']) (by simp) k3
    obtain ⟨hl', ha⟩ := hend l'' r' m3 m2
    refine ⟨r', ha, ?_⟩
    rw [show pad ++ ['"'] ++ l = pad ++ '"' :: l by simp, step_open hpad, k4, parseFrom_eq]
    have : parseStep ⟨['"'] ++ l'', r', acc, .quoted ([] ++ t)⟩ = .inr (.ok (acc ++ [t], r')) := by
      rcases hl' with rfl | rfl <;> simp [parseStep, cut]
    rw [this]

theorem read_row {ts : List Str} {l : Str} (h : RowText ts l) : ∀ {line rest : Str}, LineOK line rest → ∀ {tail after : Str},
    RowEnd tail after → line ++ normalEols rest = l ++ tail → ∀ (acc : List Str),
    ∃ rest', normalEols rest' = after ∧ parseFrom ⟨line, rest, acc, .field⟩ = some (.ok (acc ++ ts, rest')) := by
  induction h with
  | last h => intro line rest hl tail after ht he acc; exact read_cell_last h hl ht he acc
  | more h _ ih =>
    intro line rest hl tail after ht he acc
    obtain ⟨l', r', h1, h2, h3⟩ := read_cell_comma h hl (y := _) (by rw [he]; simp; rfl) acc
    obtain ⟨rest', k1, k2⟩ := ih h1 ht h2 (acc ++ [_])
    exact ⟨rest', k1, by rw [h3, k2]; simp⟩

/-! ### rows: what is read the grammar describes -/

theorem trim_split {line rest : Str} (h : LineOK line rest) : ∃ pad, (∀ c ∈ pad, white c = true ∧ c ≠ '\n') ∧
    (line = pad ++ trimLeft line ∧ trimLeft line ≠ [] ∧ LineOK (trimLeft line) rest ∨
     trimLeft line = [] ∧ (line = pad ∧ rest = [] ∨ line = pad ++ ['\n'])) := by
  have hsplit : line = line.takeWhile white ++ trimLeft line := by rw [trimLeft_def]; exact (List.takeWhile_append_dropWhile ..).symm
  have hw : ∀ c ∈ line.takeWhile white, white c = true := fun c hc => (List.all_eq_true.1 List.all_takeWhile) c hc
  by_cases ht : trimLeft line = []
  · rw [ht, List.append_nil] at hsplit
    rcases h with ⟨a, ha, hn⟩ | ⟨hn, rfl⟩
    · refine ⟨a, fun c hc => ⟨hw c (by rw [← hsplit, ha]; simp [hc]), fun e => hn (e ▸ hc)⟩, .inr ⟨ht, .inr ha⟩⟩
    · exact ⟨line, fun c hc => ⟨hw c (by rw [← hsplit]; exact hc), fun e => hn (e ▸ hc)⟩, .inr ⟨ht, .inl ⟨rfl, rfl⟩⟩⟩
  · rw [hsplit] at h
    obtain ⟨h1, h2⟩ := h.append ht
    exact ⟨_, fun c hc => ⟨hw c hc, fun e => h2 (e ▸ hc)⟩, .inl ⟨hsplit, ht, h1⟩⟩

theorem trimLeft_start {line : Str} {c : Char} {r : Str} (h : trimLeft line = c :: r) : white c = false := by
  rw [trimLeft_def] at h
  have := List.head?_dropWhile_not white line
  rw [h] at this
  simpa using this

theorem escapeQuotes_noQuote {a : Str} (h : '"' ∉ a) : escapeQuotes a = a := by
  induction a with
  | nil => rfl
  | cons c a ih =>
    simp only [List.mem_cons, not_or] at h
    unfold escapeQuotes
    rw [if_neg (fun e => h.1 e.symm), ih h.2]

theorem escapeQuotes_append (a b : Str) : escapeQuotes (a ++ b) = escapeQuotes a ++ escapeQuotes b := by
  induction a with
  | nil => rfl
  | cons c a ih =>
    rw [List.cons_append]
    simp only [escapeQuotes, ih]
    split <;> rfl

/-- What the parser has accepted from a state, in terms of the grammar. -/
def Accepted (s : PState) (row : List Str) (rest' : Str) : Prop :=
  ∃ tail, RowEnd tail (normalEols rest') ∧
    match s.mode with
    | .field => ∃ ts l, row = s.acc ++ ts ∧ RowText ts l ∧ s.line ++ normalEols s.rest = l ++ tail
    | .quoted buf => ∃ t, (row = s.acc ++ [buf ++ t] ∧ s.line ++ normalEols s.rest = escapeQuotes t ++ '"' :: tail) ∨
        ∃ ts l, row = s.acc ++ (buf ++ t) :: ts ∧ RowText ts l ∧ s.line ++ normalEols s.rest = escapeQuotes t ++ '"' :: ',' :: (l ++ tail)

theorem accepted (s : PState) : ∀ row rest', LineOK s.line s.rest → parseFrom s = some (.ok (row, rest')) → Accepted s row rest' := by
  induction s using pstate_induction with
  | h s ih =>
    intro row rest' hl h
    rw [parseFrom_eq] at h
    obtain ⟨line, rest, acc, mode⟩ := s
    cases mode with
    | field =>
      obtain ⟨pad, hpad, hcase⟩ := trim_split hl
      unfold Accepted
      simp only
      rcases hcase with ⟨hs, hne, hl'⟩ | ⟨ht, hcase⟩
      · cases htl : trimLeft line with
        | nil => exact absurd htl hne
        | cons c r =>
        have hc := trimLeft_start htl
        rw [htl] at hl' hs
        simp only at hs
        by_cases hq : c = '"'
        · subst hq
          have hstep : parseStep ⟨line, rest, acc, .field⟩ = .inl ⟨r, rest, acc, .quoted []⟩ := by
            unfold parseStep; simp [htl]
          rw [hstep] at h
          have hl1 : LineOK r rest := by
            rcases hl'.tail with h | ⟨_, h⟩
            · exact h
            · exact absurd h (by decide)
          obtain ⟨tail, hend, t, hcase⟩ := ih _ hstep row rest' hl1 h
          refine ⟨tail, hend, ?_⟩
          rcases hcase with ⟨h1, h2⟩ | ⟨ts, l, h1, h2, h3⟩
          · refine ⟨[t], _, by simpa using h1, .last (.quoted pad t hpad), ?_⟩
            rw [hs]
            simp only [List.append_assoc, List.cons_append] at h2 ⊢
            rw [h2]; simp
          · refine ⟨t :: ts, _, by simpa using h1, .more (.quoted pad t hpad) h2, ?_⟩
            rw [hs]
            simp only [List.append_assoc, List.cons_append] at h3 ⊢
            rw [h3]; simp
        · have hhead : (c :: r).head? ≠ some '"' := by simpa using hq
          cases hcut : cut ',' (c :: r) with
          | some fl =>
            obtain ⟨f, line'⟩ := fl
            by_cases hbare : '"' ∈ f
            · have hstep : parseStep ⟨line, rest, acc, .field⟩ = .inr (throwErr .csvBareQuote) := by
                unfold parseStep; simp only [htl, if_neg hhead, hcut, if_pos hbare]
              rw [hstep] at h; cases h
            · have hstep : parseStep ⟨line, rest, acc, .field⟩ = .inl ⟨line', rest, acc ++ [f], .field⟩ := by
                unfold parseStep; simp only [htl, if_neg hhead, hcut, if_neg hbare]
              rw [hstep] at h
              rw [cut_eq_some_iff] at hcut
              have hl1 : LineOK (',' :: line') rest ∧ '\n' ∉ f := by
                rw [hcut.1] at hl'; exact hl'.append (by simp)
              have hl2 : LineOK line' rest := by
                rcases hl1.1.tail with h | ⟨_, h⟩
                · exact h
                · exact absurd h (by decide)
              obtain ⟨tail, hend, ts, l, h1, h2, h3⟩ := ih _ hstep row rest' hl2 h
              refine ⟨tail, hend, f :: ts, _, by simpa using h1, .more (.plain pad f hpad ?_ ⟨hcut.2, hbare, hl1.2⟩) h2, ?_⟩
              · intro c' r' e
                rw [e] at hcut
                simp only [List.cons_append, List.cons.injEq] at hcut
                rw [← hcut.1.1]; exact hc
              · simp only at h3
                rw [hs, hcut.1]; simp only [List.append_assoc, List.cons_append]; rw [h3]
          | none =>
            by_cases hbare : '"' ∈ chompNL (c :: r)
            · have hstep : parseStep ⟨line, rest, acc, .field⟩ = .inr (throwErr .csvBareQuote) := by
                unfold parseStep; simp only [htl, if_neg hhead, hcut, if_pos hbare]
              rw [hstep] at h; cases h
            · have hstep : parseStep ⟨line, rest, acc, .field⟩ = .inr (.ok (acc ++ [chompNL (c :: r)], rest)) := by
                unfold parseStep; simp only [htl, if_neg hhead, hcut, if_neg hbare]
              rw [hstep] at h
              simp only [Option.some.injEq, Except.ok.injEq, Prod.mk.injEq] at h
              obtain ⟨rfl, rfl⟩ := h
              rw [cut_eq_none_iff] at hcut
              rcases hl' with ⟨a, ha, hn⟩ | ⟨hn, rfl⟩
              · have hch : chompNL (c :: r) = a := by rw [ha]; simp [chompNL]
                rw [hch] at hbare ⊢
                refine ⟨'\n' :: normalEols rest, .inr rfl, [a], _, rfl, .last (.plain pad a hpad ?_ ⟨?_, hbare, hn⟩), ?_⟩
                · intro c' r' e
                  rw [e] at ha
                  simp only [List.cons_append, List.cons.injEq] at ha
                  rw [← ha.1]; exact hc
                · intro hm; exact hcut (by rw [ha]; simp [hm])
                · rw [hs, ha]; simp
              · have hch : chompNL (c :: r) = c :: r := by
                  unfold chompNL
                  split
                  · rename_i h; exact absurd (List.mem_of_getLast? h) hn
                  · rfl
                rw [hch] at hbare ⊢
                refine ⟨[], .inl ⟨rfl, rfl⟩, [c :: r], _, rfl, .last (.plain pad (c :: r) hpad ?_ ⟨hcut, hbare, hn⟩), ?_⟩
                · intro c' r' e; cases e; exact hc
                · rw [hs]; simp [normalEols]
      · have hstep : parseStep ⟨line, rest, acc, .field⟩ = .inr (.ok (acc ++ [[]], rest)) := by
          unfold parseStep; simp [ht, cut, chompNL]
        rw [hstep] at h
        simp only [Option.some.injEq, Except.ok.injEq, Prod.mk.injEq] at h
        obtain ⟨rfl, rfl⟩ := h
        have hcell : CellText [] (pad ++ []) := .plain pad [] hpad (by simp) (by simp)
        rcases hcase with ⟨rfl, rfl⟩ | rfl
        · exact ⟨[], .inl ⟨rfl, rfl⟩, [[]], _, rfl, .last hcell, by simp [normalEols]⟩
        · exact ⟨_, .inr rfl, [[]], _, rfl, .last hcell, by simp⟩
    | quoted buf =>
      unfold Accepted
      simp only
      cases hcut : cut '"' line with
      | some al =>
        obtain ⟨a, line'⟩ := al
        have hcut' := hcut
        rw [cut_eq_some_iff] at hcut
        obtain ⟨rfl, ha⟩ := hcut
        have hl1 : LineOK line' rest := by
          rcases (hl.append (by simp)).1.tail with h | ⟨_, h⟩
          · exact h
          · exact absurd h (by decide)
        cases hline : line' with
        | nil =>
          subst hline
          have hstep : parseStep ⟨a ++ '"' :: [], rest, acc, .quoted buf⟩ = .inr (.ok (acc ++ [buf ++ a], rest)) := by
            unfold parseStep; simp only [hcut']; simp
          rw [hstep] at h
          simp only [Option.some.injEq, Except.ok.injEq, Prod.mk.injEq] at h
          obtain ⟨rfl, rfl⟩ := h
          have := hl1.nil
          subst this
          exact ⟨[], .inl ⟨rfl, rfl⟩, a, .inl ⟨rfl, by rw [escapeQuotes_noQuote ha]; simp [normalEols]⟩⟩
        | cons c r =>
          subst hline
          by_cases h1 : c = '"'
          · subst h1
            have hstep : parseStep ⟨a ++ '"' :: '"' :: r, rest, acc, .quoted buf⟩ = .inl ⟨r, rest, acc, .quoted (buf ++ a ++ ['"'])⟩ := by
              unfold parseStep; simp only [hcut']; simp
            rw [hstep] at h
            have hl2 : LineOK r rest := by
              rcases hl1.tail with h | ⟨_, h⟩
              · exact h
              · exact absurd h (by decide)
            obtain ⟨tail, hend, t, hcase⟩ := ih _ hstep row rest' hl2 h
            have hesc : escapeQuotes (a ++ '"' :: t) = a ++ '"' :: '"' :: escapeQuotes t := by
              rw [escapeQuotes_append, escapeQuotes_noQuote ha]
              congr 1
            refine ⟨tail, hend, a ++ '"' :: t, ?_⟩
            rw [hesc]
            rcases hcase with ⟨h1, h2⟩ | ⟨ts, l, h1, h2, h3⟩
            · left
              simp only at h2
              exact ⟨by rw [h1]; simp, by simp only [List.append_assoc, List.cons_append]; rw [h2]⟩
            · right
              simp only at h3
              exact ⟨ts, l, by rw [h1]; simp, h2, by simp only [List.append_assoc, List.cons_append]; rw [h3]⟩
          · by_cases h2 : c = ','
            · subst h2
              have hstep : parseStep ⟨a ++ '"' :: ',' :: r, rest, acc, .quoted buf⟩ = .inl ⟨r, rest, acc ++ [buf ++ a], .field⟩ := by
                unfold parseStep; simp only [hcut']; simp
              rw [hstep] at h
              have hl2 : LineOK r rest := by
                rcases hl1.tail with h | ⟨_, h⟩
                · exact h
                · exact absurd h (by decide)
              obtain ⟨tail, hend, ts, l, k1, k2, k3⟩ := ih _ hstep row rest' hl2 h
              simp only at k3
              refine ⟨tail, hend, a, .inr ⟨ts, l, by simpa using k1, k2, ?_⟩⟩
              rw [escapeQuotes_noQuote ha]; simp only [List.append_assoc, List.cons_append]; rw [k3]
            · by_cases h3 : c :: r = ['\n']
              · cases h3
                have hstep : parseStep ⟨a ++ '"' :: ['\n'], rest, acc, .quoted buf⟩ = .inr (.ok (acc ++ [buf ++ a], rest)) := by
                  unfold parseStep; simp only [hcut']; simp
                rw [hstep] at h
                simp only [Option.some.injEq, Except.ok.injEq, Prod.mk.injEq] at h
                obtain ⟨rfl, rfl⟩ := h
                exact ⟨_, .inr rfl, a, .inl ⟨rfl, by rw [escapeQuotes_noQuote ha]; simp⟩⟩
              · have hstep : parseStep ⟨a ++ '"' :: c :: r, rest, acc, .quoted buf⟩ = .inr (throwErr .csvQuote) := by
                  unfold parseStep; simp only [hcut']
                  rw [if_neg (by simpa using h1), if_neg (by simpa using h2), if_neg (by simpa using h3)]
                rw [hstep] at h
                cases h
      | none =>
        by_cases hline : line = []
        · have hstep : parseStep ⟨line, rest, acc, .quoted buf⟩ = .inr (throwErr .csvQuote) := by
            unfold parseStep; simp only [hcut, if_pos hline]
          rw [hstep] at h
          cases h
        · have hq : '"' ∉ line := by rw [← cut_eq_none_iff]; exact hcut
          cases hr : readLine rest with
          | none =>
            have hstep : parseStep ⟨line, rest, acc, .quoted buf⟩ = .inl ⟨[], [], acc, .quoted (buf ++ line)⟩ := by
              unfold parseStep; simp only [hcut, if_neg hline, hr]
            rw [hstep] at h
            simp only at h
            rw [parseFrom_eq] at h
            have hstep : parseStep ⟨[], [], acc, .quoted (buf ++ line)⟩ = .inr (throwErr .csvQuote) := by
              unfold parseStep; simp [cut]
            rw [hstep] at h
            cases h
          | some lr =>
            obtain ⟨l1, r1⟩ := lr
            have hstep : parseStep ⟨line, rest, acc, .quoted buf⟩ = .inl ⟨l1, r1, acc, .quoted (buf ++ line)⟩ := by
              unfold parseStep; simp only [hcut, if_neg hline, hr]
            rw [hstep] at h
            obtain ⟨hn, hl1⟩ := readLine_normal hr
            obtain ⟨tail, hend, t, hcase⟩ := ih _ hstep row rest' hl1 h
            refine ⟨tail, hend, line ++ t, ?_⟩
            rw [escapeQuotes_append, escapeQuotes_noQuote hq, hn]
            rcases hcase with ⟨h1, h2⟩ | ⟨ts, l, h1, h2, h3⟩
            · left
              simp only at h2
              exact ⟨by rw [h1]; simp, by rw [h2]; simp⟩
            · right
              simp only at h3
              exact ⟨ts, l, by rw [h1]; simp, h2, by rw [h3]; simp⟩

/-! ### files -/

theorem csvRecords_congr {s s' : Str} (h : readRecord s = readRecord s') {rows : List (List Str)} (hs : CsvRecords s' rows) : CsvRecords s rows := by
  cases hs with
  | eof h' => exact .eof (h.trans h')
  | cons h' hs => exact .cons (h.trans h') hs

theorem rowText_head {r : List Str} {l : Str} (h : RowText r l) : l.head? ≠ some '\n' := by
  have hc : ∀ {t w : Str}, CellText t w → w.head? ≠ some '\n' := by
    intro t w h
    cases h with
    | plain pad _ hpad _ hd =>
      cases pad with
      | nil =>
        cases t with
        | nil => simp
        | cons c t => simp; rintro rfl; simp at hd
      | cons c pad => simp; exact (hpad c (by simp)).2
    | quoted pad _ hpad =>
      cases pad with
      | nil => simp
      | cons c pad => simp; exact (hpad c (by simp)).2
  cases h with
  | last h => exact hc h
  | @more t w l' ts h _ =>
    cases w with
    | nil => simp
    | cons c w => simpa using hc h

theorem recordStep_skip {s l r : Str} (h : readLine s = some (l, r)) (hs : l.head? = some '#' ∨ l = [] ∨ l = ['\n']) : readRecord s = readRecord r := by
  rw [readRecord_eq]
  have : recordStep s = .inl r := by
    unfold recordStep
    rw [h]
    simp only
    by_cases h1 : l.head? = some '#'
    · rw [if_pos h1]
    · rw [if_neg h1, if_pos (by tauto)]
  rw [this]

theorem readRecord_row {s l r : Str} (h : readLine s = some (l, r)) (h1 : l.head? ≠ some '#') (h2 : l ≠ []) (h3 : l ≠ ['\n'])
    {row : List Str} {rest : Str} : parseFrom ⟨l, r, [], .field⟩ = some (.ok (row, rest)) ↔ readRecord s = some (.record row rest) := by
  rw [readRecord_eq]
  have : recordStep s = match parseFrom ⟨l, r, [], .field⟩ with
      | none => .inr (.bad .panic)
      | some (.error f) => .inr (.bad f)
      | some (.ok (row, rest)) => .inr (.record row rest) := by
    unfold recordStep
    rw [h]
    simp only
    rw [if_neg h1, if_neg (by tauto), parseRecord_eq]
    rfl
  rw [this]
  cases parseFrom ⟨l, r, [], .field⟩ with
  | none => simp
  | some x =>
    cases x with
    | error f => simp
    | ok p => cases p; simp

theorem fileText_records {rows : List (List Str)} {x : Str} (h : FileText rows x) : ∀ s, normalEols s = x → CsvRecords s rows := by
  induction h with
  | nil =>
    intro s hs
    refine .eof ?_
    cases hr : readLine s with
    | none => rw [readRecord_eq]; unfold recordStep; rw [hr]
    | some lr =>
      obtain ⟨hn, hl⟩ := readLine_normal hr
      rw [hs] at hn
      obtain ⟨h1, h2⟩ := List.append_eq_nil_iff.1 hn.symm
      rw [recordStep_skip hr (.inr (.inl h1))]
      rw [h1] at hl
      rw [hl.nil]
      exact readRecord_nil
  | @final r l hrow hne hc =>
    intro s hs
    obtain ⟨line, rest, hr⟩ := readLine_isSome (s := s) (by rw [hs]; exact hne)
    obtain ⟨hn, hl⟩ := readLine_normal hr
    rw [hs] at hn
    obtain ⟨rest', h1, h2⟩ := read_row hrow hl (tail := []) (after := []) (.inl ⟨rfl, rfl⟩) (by rw [← hn]; simp) []
    have hlne : line ≠ [] := by
      rintro rfl
      rw [hl.nil] at hn; exact hne (by simpa [normalEols] using hn)
    have hhead : line.head? = l.head? := by rw [hn]; cases line with
      | nil => exact absurd rfl hlne
      | cons c line => rfl
    have := (readRecord_row hr (by rw [hhead]; exact hc) hlne (by rintro rfl; exact rowText_head hrow (by rw [← hhead]; rfl))).1 h2
    refine .cons this (.eof ?_)
    cases hr' : readLine rest' with
    | none => rw [readRecord_eq]; unfold recordStep; rw [hr']
    | some lr =>
      obtain ⟨hn, hl⟩ := readLine_normal hr'
      rw [h1] at hn
      obtain ⟨h1, h2⟩ := List.append_eq_nil_iff.1 hn.symm
      rw [recordStep_skip hr' (.inr (.inl h1))]
      rw [h1] at hl
      rw [hl.nil]
      exact readRecord_nil
  | @row r l f rs hrow hne hc _ ih =>
    intro s hs
    obtain ⟨line, rest, hr⟩ := readLine_isSome (s := s) (by rw [hs]; simp)
    obtain ⟨hn, hl⟩ := readLine_normal hr
    rw [hs] at hn
    obtain ⟨rest', h1, h2⟩ := read_row hrow hl (tail := '\n' :: f) (after := f) (.inr rfl) hn.symm []
    have hlne : line ≠ [] := by
      rintro rfl
      rw [hl.nil] at hn; simp [normalEols] at hn
    have hhead : line.head? = l.head? := by
      have : (l ++ '\n' :: f).head? = (line ++ normalEols rest).head? := by rw [hn]
      cases line with
      | nil => exact absurd rfl hlne
      | cons c line =>
        cases l with
        | nil => exact absurd rfl hne
        | cons d l => simpa using this.symm
    have := (readRecord_row hr (by rw [hhead]; exact hc) hlne (by rintro rfl; exact rowText_head hrow (by rw [← hhead]; rfl))).1 h2
    exact .cons this (ih rest' h1)
  | @comment c f rs hc _ ih =>
    intro s hs
    obtain ⟨line, rest, hr⟩ := readLine_isSome (s := s) (by rw [hs]; simp)
    obtain ⟨hn, hl⟩ := readLine_normal hr
    rw [hs] at hn
    obtain ⟨h1, h2⟩ := hl.split (x := '#' :: c) (by simp [hc]) hn.symm
    refine csvRecords_congr (recordStep_skip hr (.inl (by rw [h1]; rfl))) (ih rest h2)
  | @lastComment c hc =>
    intro s hs
    obtain ⟨line, rest, hr⟩ := readLine_isSome (s := s) (by rw [hs]; simp)
    obtain ⟨hn, hl⟩ := readLine_normal hr
    rw [hs] at hn
    have hrest : rest = [] ∧ line = '#' :: c := by
      rcases hl with ⟨a, rfl, _⟩ | ⟨_, rfl⟩
      · have : '\n' ∈ '#' :: c := by rw [hn]; simp
        simp [hc] at this
      · exact ⟨rfl, by simpa [normalEols] using hn.symm⟩
    obtain ⟨rfl, rfl⟩ := hrest
    exact .eof (by rw [recordStep_skip hr (.inl rfl)]; exact readRecord_nil)
  | @blank f rs _ ih =>
    intro s hs
    obtain ⟨line, rest, hr⟩ := readLine_isSome (s := s) (by rw [hs]; simp)
    obtain ⟨hn, hl⟩ := readLine_normal hr
    rw [hs] at hn
    obtain ⟨h1, h2⟩ := hl.split (x := []) (by simp) hn.symm
    exact csvRecords_congr (recordStep_skip hr (.inr (.inr (by rw [h1]; rfl)))) (ih rest h2)

/-- What is skipped before the next record, or before the end of the file, is comments and blank lines. -/
theorem fileText_skip {s l r : Str} (h : readLine s = some (l, r)) (hs : l.head? = some '#' ∨ l = [] ∨ l = ['\n'])
    {rows : List (List Str)} (hr : FileText rows (normalEols r)) : FileText rows (normalEols s) := by
  obtain ⟨hn, hl⟩ := readLine_normal h
  rw [hn]
  rcases hs with hs | rfl | rfl
  · cases l with
    | nil => cases hs
    | cons c l =>
      cases hs
      rcases hl with ⟨a, ha, hna⟩ | ⟨hnn, rfl⟩
      · cases a with
        | nil => simp at ha
        | cons d a =>
          simp at ha
          obtain ⟨rfl, rfl⟩ := ha
          have := FileText.comment (c := a) (fun h => hna (List.mem_cons_of_mem _ h)) hr
          simpa using this
      · have : rows = [] := by
          simp only [normalEols] at hr
          generalize hx : ([] : Str) = x at hr
          cases hr with
          | nil => rfl
          | final _ hne => exact absurd hx.symm hne
          | row => simp at hx
          | comment => cases hx
          | lastComment => cases hx
          | blank => cases hx
        subst this
        have := FileText.lastComment (c := l) (fun h => hnn (List.mem_cons_of_mem _ h))
        simpa [normalEols] using this
  · simpa using hr
  · exact .blank hr

theorem records_fileText {s : Str} {rows : List (List Str)} (h : CsvRecords s rows) : FileText rows (normalEols s) := by
  have hlines : ∀ (P : ReadResult → Str → Prop),
      (∀ s l r x, readLine s = some (l, r) → (l.head? = some '#' ∨ l = [] ∨ l = ['\n']) → P x r → P x s) →
      (∀ s x, recordStep s = .inr x → P x s) → ∀ s x, readRecord s = some x → P x s := by
    intro P hskip hstop s
    induction hn : s.length using Nat.strongRecOn generalizing s with
    | ind n ih =>
      intro x hx
      rw [readRecord_eq] at hx
      cases hs : recordStep s with
      | inr y => rw [hs] at hx; cases hx; exact hstop s _ hs
      | inl s' =>
        rw [hs] at hx
        have hP := ih s'.length (by have := recordStep_size s s' hs; omega) s' rfl x hx
        unfold recordStep at hs
        cases hr : readLine s with
        | none => rw [hr] at hs; cases hs
        | some lr =>
          obtain ⟨l, r⟩ := lr
          rw [hr] at hs
          simp only at hs
          by_cases h1 : l.head? = some '#'
          · rw [if_pos h1] at hs; cases hs; exact hskip s l _ x hr (.inl h1) hP
          · rw [if_neg h1] at hs
            by_cases h2 : l = [] ∨ l = ['\n']
            · rw [if_pos h2] at hs; cases hs; exact hskip s l _ x hr (.inr h2) hP
            · rw [if_neg h2] at hs
              split at hs <;> cases hs
  induction h with
  | @eof s h =>
    refine hlines (fun x s => x = .eof → FileText [] (normalEols s)) ?_ ?_ s _ h rfl
    · intro s l r x hr hs ih hx; exact fileText_skip hr hs (ih hx)
    · rintro s _ hs rfl
      unfold recordStep at hs
      cases hr : readLine s with
      | none =>
        unfold readLine at hr
        by_cases h0 : s = []
        · subst h0; exact .nil
        · rw [if_neg h0] at hr
          cases hc : cut '\n' s with
          | none => rw [hc] at hr; cases hr
          | some ab => rw [hc] at hr; cases hr
      | some lr =>
        rw [hr] at hs
        simp only at hs
        split at hs
        · cases hs
        · split at hs
          · cases hs
          · split at hs <;> cases hs
  | @cons s rest row rows h _ ih =>
    refine hlines (fun x s => x = .record row rest → FileText (row :: rows) (normalEols s)) ?_ ?_ s _ h rfl
    · intro s l r x hr hs ih hx; exact fileText_skip hr hs (ih hx)
    · rintro s _ hs rfl
      have hrec : readRecord s = some (.record row rest) := by rw [readRecord_eq, hs]
      unfold recordStep at hs
      cases hr : readLine s with
      | none => rw [hr] at hs; cases hs
      | some lr =>
        obtain ⟨l, r⟩ := lr
        rw [hr] at hs
        simp only at hs
        by_cases h1 : l.head? = some '#'
        · rw [if_pos h1] at hs; cases hs
        · rw [if_neg h1] at hs
          by_cases h2 : l = [] ∨ l = ['\n']
          · rw [if_pos h2] at hs; cases hs
          · push Not at h2
            obtain ⟨hn, hl⟩ := readLine_normal hr
            have hp := (readRecord_row hr h1 h2.1 h2.2).2 hrec
            obtain ⟨tail, hend, ts, l', k1, k2, k3⟩ := accepted _ _ _ hl hp
            simp only [List.nil_append] at k1 k3
            subst k1
            rw [hn, k3]
            have hl'ne : l' ≠ [] := by
              rintro rfl
              rw [List.nil_append] at k3
              rcases hend with ⟨rfl, _⟩ | rfl
              · exact h2.1 (List.append_eq_nil_iff.1 k3).1
              · exact h2.2 (hl.split (x := []) (by simp) k3).1
            have hhead : l'.head? = l.head? := by
              have : (l ++ normalEols r).head? = (l' ++ tail).head? := by rw [k3]
              cases l with
              | nil => exact absurd rfl h2.1
              | cons c l =>
                cases l' with
                | nil => exact absurd rfl hl'ne
                | cons d l' => simpa using this.symm
            rcases hend with ⟨rfl, he⟩ | rfl
            · rw [he] at ih
              have : rows = [] := by
                generalize hx : ([] : Str) = x at ih
                cases ih with
                | nil => rfl
                | final _ hne => exact absurd hx.symm hne
                | row => simp at hx
                | comment => cases hx
                | lastComment => cases hx
                | blank => cases hx
              subst this
              rw [List.append_nil]
              exact .final k2 hl'ne (by rw [hhead]; exact h1)
            · exact .row k2 hl'ne (by rw [hhead]; exact h1) ih

theorem csvRecords_iff (s : Str) (rows : List (List Str)) : CsvRecords s rows ↔ FileText rows (normalEols s) :=
  ⟨records_fileText, fun h => fileText_records h s rfl⟩

end Csv

end Rtcg
