import Verif.Spec.Csv
import Verif.Proofs.Lang
import Verif.Proofs.Loop

namespace Rtcg
open Rtcg.Spec

namespace Csv

theorem cut_length {sep : Char} {s a b : Str} (h : cut sep s = some (a, b)) :
    a.length + b.length + 1 = s.length := by
  rw [cut_eq_some_iff] at h
  rw [h.1]; simp; omega

theorem dropCR_length (s : Str) : (dropCR s).length ≤ s.length := by
  unfold dropCR; split <;> simp

theorem readLine_length {s l r : Str} (h : readLine s = some (l, r)) :
    l.length + r.length ≤ s.length ∧ r.length < s.length := by
  unfold readLine at h
  split at h
  · cases h
  · rename_i hs
    split at h
    · rename_i a rest hc
      simp at h; obtain ⟨rfl, rfl⟩ := h
      have := cut_length hc
      have := dropCR_length a
      simp; omega
    · simp at h; obtain ⟨rfl, rfl⟩ := h
      have := dropCR_length s
      have : s.length ≠ 0 := by simpa using hs
      simp; omega

/-- Unread characters. -/
def PState.size (s : PState) : Nat := s.line.length + s.rest.length

theorem trimLeft_length (s : Str) : (trimLeft s).length ≤ s.length :=
  by rw [trimLeft_def]; exact (List.dropWhile_suffix white (l := s)).length_le

theorem parseStep_size (s s' : PState) (h : parseStep s = .inl s') : s'.size < s.size := by
  obtain ⟨line, rest, acc, mode⟩ := s
  unfold parseStep at h
  have ht := trimLeft_length line
  cases mode with
  | field =>
    simp only at h
    split at h
    · rename_i hh
      cases h
      cases hl : trimLeft line with
      | nil => rw [hl] at hh; simp at hh
      | cons c r => rw [hl] at ht; simp [PState.size] at *; omega
    · split at h
      · rename_i f line' hc
        split at h
        · cases h
        · cases h
          have := cut_length hc
          simp [PState.size]; omega
      · split at h <;> cases h
  | quoted buf =>
    simp only at h
    split at h
    · rename_i a line' hc
      have := cut_length hc
      have htl : line'.tail.length ≤ line'.length := by simp
      split at h
      · cases h; simp [PState.size] at *; omega
      · split at h
        · cases h; simp [PState.size] at *; omega
        · split at h <;> cases h
    · split at h
      · cases h
      · rename_i hl
        have hl' : line.length ≠ 0 := by simpa using hl
        split at h
        · cases h; simp [PState.size]; omega
        · rename_i l r hr
          cases h
          have := readLine_length hr
          show l.length + r.length < line.length + rest.length
          omega

/-- The result of the field loops from any state. -/
def parseFrom (s : PState) : Option (Res (List Str × Str)) := loop parseStep (s.size + 1) s

theorem parseFrom_eq (s : PState) :
    parseFrom s = match parseStep s with
      | .inl s' => parseFrom s'
      | .inr r => some r := by
  unfold parseFrom
  refine (loop_eq_of_measure PState.size parseStep_size (s.size + 1) s (by omega)).trans ?_
  cases parseStep s <;> rfl

theorem parseRecord_eq (line rest : Str) : parseRecord line rest = parseFrom ⟨line, rest, [], .field⟩ := rfl

theorem parseFrom_some (s : PState) : ∃ r, parseFrom s = some r :=
  loop_some_of_measure PState.size parseStep_size _ s (by omega)

/-- Induction along the field loops. -/
theorem pstate_induction {P : PState → Prop}
    (h : ∀ s, (∀ s', parseStep s = .inl s' → P s') → P s) (s : PState) : P s := by
  have : ∀ n s, s.size < n → P s := by
    intro n
    induction n with
    | zero => intro s h; omega
    | succ n ih =>
      intro s hs
      exact h s fun s' h' => ih s' (by have := parseStep_size s s' h'; omega)
  exact this _ s (Nat.lt_succ_self _)

theorem parseStep_rest {s s' : PState} (h : parseStep s = .inl s') :
    s'.rest.length ≤ s.rest.length := by
  obtain ⟨line, rest, acc, mode⟩ := s
  unfold parseStep at h
  cases mode with
  | field =>
    simp only at h
    split at h
    · cases h; simp
    · split at h
      · split at h <;> cases h
        simp
      · split at h <;> cases h
  | quoted buf =>
    simp only at h
    split at h
    · split at h
      · cases h; simp
      · split at h
        · cases h; simp
        · split at h <;> cases h
    · split at h
      · cases h
      · split at h
        · cases h; simp
        · rename_i l r hr
          cases h
          have := readLine_length hr
          simp; omega

theorem parseStep_acc {s s' : PState} (h : parseStep s = .inl s') : s.acc.length ≤ s'.acc.length := by
  obtain ⟨line, rest, acc, mode⟩ := s
  unfold parseStep at h
  cases mode with
  | field =>
    simp only at h
    split at h
    · cases h; simp
    · split at h
      · split at h <;> cases h
        simp
      · split at h <;> cases h
  | quoted buf =>
    simp only at h
    split at h
    · split at h
      · cases h; simp
      · split at h
        · cases h; simp
        · split at h <;> cases h
    · split at h
      · cases h
      · split at h
        · cases h; simp
        · cases h; simp

theorem parseStep_done {s : PState} {row : List Str} {rest' : Str} (h : parseStep s = .inr (.ok (row, rest'))) :
    rest' = s.rest ∧ ∃ f, row = s.acc ++ [f] := by
  obtain ⟨line, rest, acc, mode⟩ := s
  unfold parseStep at h
  cases mode with
  | field =>
    simp only at h
    split at h
    · cases h
    · split at h
      · split at h
        · simp [throwErr] at h
        · cases h
      · split at h
        · simp [throwErr] at h
        · cases h; exact ⟨rfl, _, rfl⟩
  | quoted buf =>
    simp only at h
    split at h
    · split at h
      · cases h
      · split at h
        · cases h
        · split at h
          · cases h; exact ⟨rfl, _, rfl⟩
          · simp [throwErr] at h
    · split at h
      · simp [throwErr] at h
      · split at h <;> cases h

theorem parseStep_failed {s : PState} {f : Fail} (h : parseStep s = .inr (.error f)) :
    f = .err .csvBareQuote ∨ f = .err .csvQuote := by
  obtain ⟨line, rest, acc, mode⟩ := s
  unfold parseStep at h
  cases mode with
  | field =>
    simp only at h
    split at h
    · cases h
    · split at h
      · split at h
        · simp [throwErr] at h; exact Or.inl h.symm
        · cases h
      · split at h
        · simp [throwErr] at h; exact Or.inl h.symm
        · cases h
  | quoted buf =>
    simp only at h
    split at h
    · split at h
      · cases h
      · split at h
        · cases h
        · split at h
          · cases h
          · simp [throwErr] at h; exact Or.inr h.symm
    · split at h
      · simp [throwErr] at h; exact Or.inr h.symm
      · split at h <;> cases h

theorem parseFrom_ok (s : PState) : ∀ row rest', parseFrom s = some (.ok (row, rest')) →
    rest'.length ≤ s.rest.length ∧ s.acc.length < row.length := by
  induction s using pstate_induction with
  | h s ih =>
    intro row rest' h
    rw [parseFrom_eq] at h
    cases hs : parseStep s with
    | inl s' =>
      rw [hs] at h
      have := ih s' hs row rest' h
      have h1 := parseStep_rest hs
      have h2 := parseStep_acc hs
      omega
    | inr r =>
      rw [hs] at h
      cases h
      obtain ⟨rfl, f, rfl⟩ := parseStep_done hs
      simp

theorem parseFrom_err (s : PState) : ∀ f, parseFrom s = some (.error f) →
    f = .err .csvBareQuote ∨ f = .err .csvQuote := by
  induction s using pstate_induction with
  | h s ih =>
    intro f h
    rw [parseFrom_eq] at h
    cases hs : parseStep s with
    | inl s' => rw [hs] at h; exact ih s' hs f h
    | inr r => rw [hs] at h; cases h; exact parseStep_failed hs

theorem recordStep_size (s s' : Str) (h : recordStep s = .inl s') : s'.length < s.length := by
  unfold recordStep at h
  split at h
  · cases h
  · rename_i line rest hr
    have := (readLine_length hr).2
    split at h
    · cases h; exact this
    · split at h
      · cases h; exact this
      · split at h <;> cases h

theorem readRecord_eq (s : Str) :
    readRecord s = match recordStep s with
      | .inl s' => readRecord s'
      | .inr r => some r := by
  unfold readRecord
  refine (loop_eq_of_measure List.length recordStep_size (s.length + 1) s (by omega)).trans ?_
  cases recordStep s <;> rfl

theorem readRecord_some (s : Str) : ∃ r, readRecord s = some r :=
  loop_some_of_measure List.length recordStep_size _ s (by omega)

theorem readRecord_nil : readRecord [] = some .eof := by decide

/-- A record is non-empty and reading it consumes input. -/
theorem readRecord_record {s : Str} : ∀ {row rest}, readRecord s = some (.record row rest) →
    rest.length < s.length ∧ row ≠ [] := by
  induction hn : s.length using Nat.strongRecOn generalizing s with
  | ind n ih =>
    intro row rest h
    rw [readRecord_eq] at h
    cases hs : recordStep s with
    | inl s' =>
      rw [hs] at h
      have hlt := recordStep_size s s' hs
      have := ih s'.length (by omega) rfl h
      exact ⟨by omega, this.2⟩
    | inr r =>
      rw [hs] at h
      cases h
      unfold recordStep at hs
      split at hs
      · cases hs
      · rename_i line rest' hr
        have hlt := (readLine_length hr).2
        split at hs
        · cases hs
        · split at hs
          · cases hs
          · split at hs
            · cases hs
            · cases hs
            · rename_i row' rest'' hp
              cases hs
              rw [parseRecord_eq] at hp
              have := parseFrom_ok _ _ _ hp
              simp at this
              refine ⟨by omega, ?_⟩
              intro e; rw [e] at this; simp at this

theorem readRecord_bad {s : Str} : ∀ {f}, readRecord s = some (.bad f) →
    f = .err .csvBareQuote ∨ f = .err .csvQuote := by
  induction hn : s.length using Nat.strongRecOn generalizing s with
  | ind n ih =>
    intro f h
    rw [readRecord_eq] at h
    cases hs : recordStep s with
    | inl s' =>
      rw [hs] at h
      exact ih s'.length (by have := recordStep_size s s' hs; omega) rfl h
    | inr r =>
      rw [hs] at h
      cases h
      unfold recordStep at hs
      split at hs
      · cases hs
      · split at hs
        · cases hs
        · split at hs
          · cases hs
          · split at hs
            · rename_i hp
              rw [parseRecord_eq] at hp
              obtain ⟨r, hr⟩ := parseFrom_some ⟨_, _, [], .field⟩
              rw [hr] at hp; cases hp
            · rename_i hp; cases hs
              rw [parseRecord_eq] at hp
              exact parseFrom_err _ _ hp
            · cases hs

end Csv

namespace Forbidden

theorem readStep_size (s s' : Str × List Forbidden) (h : readStep s = .inl s') : s'.1.length < s.1.length := by
  unfold readStep at h
  split at h
  · cases h
  · cases h
  · cases h
  · rename_i row rest hr
    split at h
    · cases h
    · cases h
      exact (Csv.readRecord_record hr).1

/-- trace.Read from any point, with any traces already read. -/
def readFrom (s : Str) (acc : List Forbidden) : Option (Res (List Forbidden)) :=
  loop readStep (s.length + 1) (s, acc)

theorem readFrom_eq (s : Str) (acc : List Forbidden) :
    readFrom s acc = match readStep (s, acc) with
      | .inl s' => readFrom s'.1 s'.2
      | .inr r => some r := by
  unfold readFrom
  refine (loop_eq_of_measure (fun s : Str × List Forbidden => s.1.length) readStep_size (s.length + 1) (s, acc) (by simp)).trans ?_
  cases readStep (s, acc) <;> rfl

theorem read_eq (s : Str) : read s = readFrom s [] := rfl

theorem readFrom_some (s : Str) (acc : List Forbidden) : ∃ r, readFrom s acc = some r :=
  loop_some_of_measure (fun s : Str × List Forbidden => s.1.length) readStep_size _ (s, acc) (by simp)

theorem readFrom_acc (s : Str) (acc : List Forbidden) :
    readFrom s acc = (readFrom s []).map (fun r => r.map (fun ts => acc ++ ts)) := by
  induction hn : s.length using Nat.strongRecOn generalizing s acc with
  | ind n ih =>
    rw [readFrom_eq s acc, readFrom_eq s []]
    unfold readStep
    cases hr : Csv.readRecord s with
    | none => rfl
    | some r =>
      cases r with
      | eof => simp [Except.map]
      | bad f => rfl
      | record row rest =>
        have hlt := (Csv.readRecord_record hr).1
        simp only
        cases hp : parseRow row with
        | error f => rfl
        | ok t =>
          simp only [List.nil_append]
          rw [ih rest.length (by omega) rest (acc ++ [t]) rfl, ih rest.length (by omega) rest [t] rfl]
          cases readFrom rest [] with
          | none => rfl
          | some r => cases r <;> simp [Except.map]

/-- trace.Read, one record at a time. -/
theorem read_cases (s : Str) :
    read s = match Csv.readRecord s with
      | none => some (.error .panic)
      | some .eof => some (.ok [])
      | some (.bad f) => some (.error f)
      | some (.record row rest) =>
        match parseRow row with
        | .error f => some (.error f)
        | .ok t => (read rest).map (fun r => r.map (fun ts => t :: ts)) := by
  rw [read_eq, readFrom_eq]
  unfold readStep
  cases hr : Csv.readRecord s with
  | none => rfl
  | some r =>
    cases r with
    | eof => rfl
    | bad f => rfl
    | record row rest =>
      simp only
      cases hp : parseRow row with
      | error f => rfl
      | ok t =>
        simp only [List.nil_append]
        rw [readFrom_acc]; rfl

/-! ### rows -/

theorem setEvent_getEvent_lt {pre : Trace} {i : Nat} (h : i < pre.length) (name : Str) (fb : Event) :
    getEvent i pre.length ⟨name, pre, fb⟩ = .ok pre[i] := by
  unfold getEvent
  rw [if_neg (by omega)]
  simp [h]

/-- The cell loop on its remaining cells: what it fills in. -/
theorem parseCells_from (cells : List Str) (done : Trace) (name : Str) (fb : Event) (hd : done ≠ []) (hc : cells ≠ []) :
    parseCells (done.length + cells.length - 1) done.length cells
      ⟨name, done ++ List.replicate (cells.length - 1) Event.zero, Event.zero⟩ =
    match cells.mapM Event.parse with
    | .error f => .error f
    | .ok es => .ok ⟨name, done ++ es.dropLast, es.getLastD Event.zero⟩ := by
  induction cells generalizing done fb with
  | nil => exact absurd rfl hc
  | cons cell cells ih =>
    have h0 : done.length ≠ 0 := by simpa using hd
    unfold parseCells
    rw [if_neg h0]
    simp only [List.length_cons, Nat.add_sub_cancel, List.mapM_cons]
    have hparse : Event.parse cell = match Event.unmarshalText Event.zero cell with
      | (e, none) => .ok e
      | (_, some f) => .error f := rfl
    cases hcs : cells with
    | nil =>
      simp only [List.length_nil, Nat.add_zero, List.replicate_zero, List.append_nil, Nat.zero_add, Nat.add_sub_cancel]
      simp only [getEvent, if_true]
      rw [hparse]
      rcases hu : Event.unmarshalText Event.zero cell with ⟨e, _ | f⟩
      · simp [parseCells, setEvent, bind, Except.bind, pure, Except.pure]
      · simp [bind, Except.bind]
    | cons c2 cs =>
      rw [← hcs]
      have hne : cells ≠ [] := by rw [hcs]; simp
      have hlen : cells.length = cs.length + 1 := by rw [hcs]; simp
      have e1 : done.length + (cells.length + 1) - 1 = done.length + cells.length := by omega
      rw [e1]
      have hget : getEvent done.length (done.length + cells.length)
          ⟨name, done ++ List.replicate cells.length Event.zero, Event.zero⟩ = .ok Event.zero := by
        unfold getEvent
        rw [if_neg (by omega)]
        simp [List.getElem?_append_right, hlen, List.getElem?_replicate]
      rw [hget]
      simp only
      rw [hparse]
      rcases hu : Event.unmarshalText Event.zero cell with ⟨e, _ | f⟩
      · simp only
        have hset : setEvent done.length (done.length + cells.length)
            ⟨name, done ++ List.replicate cells.length Event.zero, Event.zero⟩ e =
            ⟨name, (done ++ [e]) ++ List.replicate (cells.length - 1) Event.zero, Event.zero⟩ := by
          unfold setEvent
          rw [if_neg (by omega), hlen]
          simp [List.replicate_succ]
        rw [hset]
        have := ih (done ++ [e]) fb (by simp) hne
        have e2 : (done ++ [e]).length + cells.length - 1 = done.length + cells.length := by simp
        rw [e2] at this
        have e3 : (done ++ [e]).length = done.length + 1 := by simp
        rw [e3] at this
        rw [this]
        simp only [bind, Except.bind]
        cases hm : cells.mapM Event.parse with
        | error f => rfl
        | ok es =>
          have hes : es ≠ [] := by
            intro he; subst he
            rw [hcs, List.mapM_cons] at hm
            simp only [bind, Except.bind] at hm
            split at hm
            · cases hm
            · split at hm
              · cases hm
              · simp [pure, Except.pure] at hm
          simp only [pure, Except.pure]
          cases es with
          | nil => exact absurd rfl hes
          | cons a as => simp [List.dropLast]
      · simp [bind, Except.bind]

theorem mapM_ok_iff {α β : Type} (f : α → Res β) (l : List α) (es : List β) :
    l.mapM f = .ok es ↔ l.map f = es.map Except.ok := by
  induction l generalizing es with
  | nil => cases es <;> simp [pure, Except.pure]
  | cons a l ih =>
    rw [List.mapM_cons]
    simp only [bind, Except.bind]
    cases hf : f a with
    | error e => cases es <;> simp [hf]
    | ok b =>
      simp only
      cases hm : l.mapM f with
      | error e =>
        cases es with
        | nil => simp
        | cons e' es =>
          simp only [List.map_cons, hf, List.cons.injEq, Except.ok.injEq, reduceCtorEq, false_iff, not_and]
          intro _ h
          rw [(ih es).2 h] at hm; cases hm
      | ok bs =>
        cases es with
        | nil => simp [pure, Except.pure]
        | cons e' es =>
          simp only [pure, Except.pure, Except.ok.injEq, List.map_cons, hf, List.cons.injEq]
          rw [← ih es, hm]; simp

theorem mapM_error_iff {α β : Type} (f : α → Res β) (l : List α) (e : Fail) :
    l.mapM f = .error e ↔ ∃ a x b, l = a ++ x :: b ∧ (∀ y ∈ a, ∃ v, f y = .ok v) ∧ f x = .error e := by
  induction l with
  | nil => simp [pure, Except.pure]
  | cons c l ih =>
    rw [List.mapM_cons]
    simp only [bind, Except.bind]
    cases hf : f c with
    | error e' =>
      simp only [Except.error.injEq]
      constructor
      · rintro rfl; exact ⟨[], c, l, rfl, by simp, hf⟩
      · rintro ⟨a, x, b, h1, h2, h3⟩
        cases a with
        | nil => simp at h1; rw [← h1.1, hf] at h3; simpa using h3
        | cons y a =>
          simp at h1
          obtain ⟨v, hv⟩ := h2 y (by simp)
          rw [← h1.1, hf] at hv; cases hv
    | ok v =>
      simp only
      refine Iff.trans (b := l.mapM f = .error e) ?_ ?_
      · cases l.mapM f <;> simp [pure, Except.pure]
      rw [ih]
      constructor
      · rintro ⟨a, x, b, rfl, h2, h3⟩
        exact ⟨c :: a, x, b, rfl, by
          intro y hy
          rcases List.mem_cons.1 hy with rfl | hy
          · exact ⟨v, hf⟩
          · exact h2 y hy, h3⟩
      · rintro ⟨a, x, b, h1, h2, h3⟩
        cases a with
        | nil => simp at h1; rw [← h1.1, hf] at h3; cases h3
        | cons y a =>
          simp at h1
          exact ⟨a, x, b, h1.2, fun z hz => h2 z (by simp [hz]), h3⟩

/-- The name and first event text of the first cell. -/
def firstCell (cell : Str) : Str × Str :=
  match cut ':' cell with
  | some (name, rest) => (trimSpace name, trimSpace rest)
  | none => ([], cell)

theorem parseRow_eq (cell : Str) (cells : List Str) :
    parseRow (cell :: cells) =
    match ((firstCell cell).2 :: cells).mapM Event.parse with
    | .error f => .error f
    | .ok es => .ok ⟨(firstCell cell).1, es.dropLast, es.getLastD Event.zero⟩ := by
  unfold parseRow
  rw [if_neg (by simp)]
  simp only [List.length_cons, Nat.add_sub_cancel]
  unfold parseCells
  simp only [if_true]
  have hname : tryParseName cell ⟨[], List.replicate cells.length Event.zero, Event.zero⟩ =
      ((firstCell cell).2, ⟨(firstCell cell).1, List.replicate cells.length Event.zero, Event.zero⟩) := by
    unfold tryParseName firstCell
    cases cut ':' cell <;> rfl
  rw [hname]
  simp only [List.mapM_cons]
  have hparse : ∀ cell, Event.parse cell = match Event.unmarshalText Event.zero cell with
      | (e, none) => .ok e
      | (_, some f) => .error f := fun _ => rfl
  have hget : getEvent 0 cells.length
      ⟨(firstCell cell).1, List.replicate cells.length Event.zero, Event.zero⟩ = .ok Event.zero := by
    unfold getEvent
    split
    · rfl
    · cases cells <;> simp_all
  rw [hget]
  simp only
  rw [hparse]
  rcases hu : Event.unmarshalText Event.zero (firstCell cell).2 with ⟨e, _ | f⟩
  · simp only [Nat.zero_add]
    cases hcs : cells with
    | nil => simp [setEvent, parseCells, bind, Except.bind, pure, Except.pure]
    | cons c cs =>
      rw [← hcs]
      have hne : cells ≠ [] := by rw [hcs]; simp
      have hlen : cells.length = cs.length + 1 := by rw [hcs]; simp
      have := parseCells_from cells [e] (firstCell cell).1 Event.zero (by simp) hne
      simp only [List.length_singleton, Nat.add_sub_cancel_left] at this
      have hset : setEvent 0 cells.length
            ⟨(firstCell cell).1, List.replicate cells.length Event.zero, Event.zero⟩ e =
            ⟨(firstCell cell).1, [e] ++ List.replicate (cells.length - 1) Event.zero, Event.zero⟩ := by
          unfold setEvent
          rw [if_neg (by omega), hlen]
          simp [List.replicate_succ]
      rw [hset, this]
      simp only [bind, Except.bind]
      cases hm : cells.mapM Event.parse with
      | error f => rfl
      | ok es =>
        have hes : es ≠ [] := by
          rintro rfl
          rw [mapM_ok_iff, hcs] at hm; simp at hm
        simp only [pure, Except.pure]
        cases es with
        | nil => exact absurd rfl hes
        | cons a as => simp [List.dropLast]
  · simp [bind, Except.bind]

theorem firstCell_iff (cell name text : Str) : firstCell cell = (name, text) ↔ SplitsName cell name text := by
  unfold firstCell SplitsName
  cases hc : cut ':' cell with
  | none =>
    rw [cut_eq_none_iff] at hc
    simp only [Prod.mk.injEq]
    constructor
    · rintro ⟨rfl, rfl⟩; exact Or.inl ⟨hc, rfl, rfl⟩
    · rintro (⟨_, rfl, rfl⟩ | ⟨a, b, rfl, _⟩)
      · exact ⟨rfl, rfl⟩
      · simp at hc
  | some ab =>
    obtain ⟨a, b⟩ := ab
    simp only [Prod.mk.injEq]
    constructor
    · rintro ⟨h1, h2⟩
      rw [cut_eq_some_iff] at hc
      exact Or.inr ⟨a, b, hc.1, hc.2, (trimSpace_eq_iff _ _).1 h1, (trimSpace_eq_iff _ _).1 h2⟩
    · rintro (⟨h, _⟩ | ⟨a', b', rfl, h1, h2, h3⟩)
      · rw [← cut_eq_none_iff, hc] at h; cases h
      · rw [cut_append h1] at hc
        simp only [Option.some.injEq, Prod.mk.injEq] at hc
        obtain ⟨rfl, rfl⟩ := hc
        exact ⟨(trimSpace_eq_iff _ _).2 h2, (trimSpace_eq_iff _ _).2 h3⟩

theorem parseRow_ok_iff (row : List Str) (t : Forbidden) : parseRow row = .ok t ↔ RowDenotes row t := by
  cases row with
  | nil => simp [parseRow, throwErr, RowDenotes]
  | cons cell cells =>
    rw [parseRow_eq]
    obtain ⟨name, pre, fb⟩ := t
    unfold RowDenotes
    constructor
    · intro h
      cases hm : ((firstCell cell).2 :: cells).mapM Event.parse with
      | error f => rw [hm] at h; cases h
      | ok es =>
        rw [hm] at h
        simp only [Except.ok.injEq, Forbidden.mk.injEq] at h
        obtain ⟨rfl, rfl, rfl⟩ := h
        refine ⟨cell, cells, (firstCell cell).2, rfl, (firstCell_iff _ _ _).1 rfl, ?_⟩
        rw [mapM_ok_iff] at hm
        rw [hm]
        have hes : es ≠ [] := by rintro rfl; simp at hm
        congr 1
        rw [List.getLastD_eq_getLast?, List.getLast?_eq_some_getLast hes]
        simp [List.dropLast_append_getLast]
    · rintro ⟨cell0, cells', text0, h1, h2, h3⟩
      simp only [List.cons.injEq] at h1
      obtain ⟨rfl, rfl⟩ := h1
      rw [← firstCell_iff] at h2
      rw [h2]
      rw [(mapM_ok_iff _ _ _).2 h3]
      simp

end Forbidden

end Rtcg
