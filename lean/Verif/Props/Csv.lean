import Verif.Proofs.CsvGrammar
import Verif.Spec.CsvWriter

/-
C12–C14: trace files.
-/

namespace Rtcg
open Rtcg.Spec

/-! ### lemmas -/

theorem goodEvent_noOuterSpace {e : Event} (h : GoodEvent e) {t : Str} (ht : e.marshalText = .ok t) :
    NoOuterSpace t := by
  obtain ⟨⟨⟨hne, hsp, hdot⟩, hk⟩, hv⟩ := h
  have hmarsh : e.channel.marshalText = e.channel.name ++ '.' :: e.channel.kind.string := by
    simp [Channel.marshalText, hne, Channel.eventSepJoin]
  have hfirst : ∀ x c r, e.channel.name ++ x = c :: r → white c = false := by
    intro x c r h
    cases hn : e.channel.name with
    | nil => exact absurd hn hne
    | cons d s =>
      rw [hn] at h
      simp at h
      exact h.1 ▸ hsp.1 d s hn
  have hkl : ∀ r c, e.channel.kind.string = r ++ [c] → white c = false := by
    intro r c h
    have hm : c ∈ e.channel.kind.string := by rw [h]; simp
    have : ∀ c ∈ e.channel.kind.string, white c = false := by
      rcases hk with h | h | h <;> rw [h] <;> decide
    exact this c hm
  have hlast : ∀ x v r c, (x ++ '.' :: v : Str) = r ++ [c] → (∀ r c, v = r ++ [c] → white c = false) →
      white c = false := by
    intro x v r c h hv
    rcases List.eq_nil_or_concat v with rfl | ⟨v', d, rfl⟩
    · have := List.append_inj' h rfl
      simp at this
      rw [← this.2]; decide
    · rw [List.concat_eq_append] at h hv
      have h2 : x ++ '.' :: (v' ++ [d]) = (x ++ '.' :: v') ++ [d] := by simp
      rw [h2] at h
      have := (List.append_inj' h rfl).2
      simp at this
      rw [← this]
      exact hv v' d rfl
  unfold Event.marshalText at ht
  simp only at ht
  split at ht
  · cases ht
    rw [hmarsh]
    exact ⟨hfirst _, fun r c h => hlast _ _ r c h hkl⟩
  · rename_i hne'
    have hv' : GoodValue e.value := hv.resolve_left (by intro h; rw [h] at hne'; simp [Value.isEmpty] at hne')
    cases hval : e.value.marshalText with
    | error f => rw [hval] at ht; cases ht
    | ok v =>
      rw [hval] at ht
      cases ht
      have hvs : NoOuterSpace v := by
        cases hvv : e.value with
        | none => rw [hvv] at hv'; exact hv'.elim
        | int i =>
          rw [hvv] at hval; simp [Value.marshalText] at hval
          rw [← hval]; exact noOuterSpace_of_forall (formatInt_noSpace i)
        | enum s =>
          rw [hvv] at hval hv'; simp [Value.marshalText] at hval
          rw [← hval]; exact hv'.1
      rw [hmarsh, Channel.eventSepJoin]
      exact ⟨fun c r h => hfirst _ c r (by simpa using h), fun r c h => hlast _ _ r c h hvs.2⟩

theorem rowDenotes_of_traceCells {t : Forbidden} {cells : List Str} (h : TraceCells t cells)
    (hg : ∀ e ∈ t.pre ++ [t.forbid], GoodEvent e) : RowDenotes cells t := by
  obtain ⟨c0, texts, hm, hcell⟩ := h
  have hparse : (c0 :: texts).map Event.parse = (t.pre ++ [t.forbid]).map Except.ok := by
    have key : ∀ (es : List Event) (xs : List Str), (∀ e ∈ es, GoodEvent e) →
        es.map (fun e => e.marshalText) = xs.map Except.ok → xs.map Event.parse = es.map Except.ok := by
      intro es
      induction es with
      | nil => intro xs _ h; cases xs <;> simp_all
      | cons e es ih =>
        intro xs hg h
        cases xs with
        | nil => simp at h
        | cons x xs =>
          simp only [List.map_cons, List.cons.injEq] at h ⊢
          obtain ⟨x', h1, h2⟩ := event_roundtrip (hg e (by simp))
          rw [h.1] at h1; cases h1
          exact ⟨h2, ih xs (fun e he => hg e (by simp [he])) h.2⟩
    exact key _ _ hg hm
  have hc0 : NoOuterSpace c0 := by
    cases hpf : t.pre ++ [t.forbid] with
    | nil => simp at hpf
    | cons e es =>
      rw [hpf] at hm hg
      simp only [List.map_cons, List.cons.injEq] at hm
      exact goodEvent_noOuterSpace (hg e (by simp)) hm.1
  rcases hcell with ⟨hn, hcol, rfl⟩ | ⟨sp1, sp2, hs1, hs2, hncol, hnsp, rfl⟩
  · exact ⟨c0, texts, c0, rfl, Or.inl ⟨hcol, hn, rfl⟩, hparse⟩
  · refine ⟨_, texts, c0, rfl, Or.inr ⟨t.name ++ sp1, sp2 ++ c0, by simp, ?_, ?_, ?_⟩, hparse⟩
    · simp only [List.mem_append, not_or]
      refine ⟨hncol, fun h => ?_⟩
      have := hs1 _ h
      revert this; decide
    · exact ⟨hnsp, [], sp1, by simp, by simp, hs1⟩
    · exact ⟨hc0, sp2, [], by simp, hs2, by simp⟩

/-! ### C12 -/

/-- Any file written for a list of traces (any choice of blanks, quoting, line ends, comments and blank lines) reads
back as exactly those traces, provided their events survive their text form. -/
theorem C12_written_file_reads_back {ts : List Forbidden} {rows : List (List Str)} {file : Str}
    (hfile : FileWritten rows file) (hrows : List.Forall₂ TraceCells ts rows)
    (hgood : ∀ t ∈ ts, ∀ e ∈ t.pre ++ [t.forbid], GoodEvent e) :
    Forbidden.read file = some (.ok ts) := by
  rw [Forbidden.read_ok_iff]
  refine ⟨rows, Csv.fileWritten_records hfile, ?_⟩
  clear hfile
  induction hrows with
  | nil => exact .nil
  | cons h hs ih =>
    exact .cons (rowDenotes_of_traceCells h (hgood _ (by simp))) (ih fun t ht => hgood t (by simp [ht]))

theorem eventText_ok (e : Event) : e.marshalText = .ok (eventText e) := by
  obtain ⟨t, ht⟩ := event_marshal_total e
  simp [eventText, ht]

theorem quoteRow_written {cells : List Str} (hne : cells ≠ []) (h : ∀ c ∈ cells, '\n' ∉ c ∧ '\r' ∉ c) :
    RowWritten cells (quoteRow cells) ∧ (quoteRow cells).head? = some '"' := by
  induction cells with
  | nil => exact absurd rfl hne
  | cons t ts ih =>
    have hcell : CellWritten t (quoteCell t) := .quoted [] t (by simp) (h t (by simp))
    cases ts with
    | nil => exact ⟨.last hcell, by simp [quoteRow, quoteCell]⟩
    | cons u us =>
      obtain ⟨h1, h2⟩ := ih (by simp) fun c hc => h c (by simp [hc])
      exact ⟨.more hcell h1, by simp [quoteRow, quoteCell]⟩

/-- A concrete writer: for every list of traces that the format can carry (of any length), writing it and reading
the file gives exactly that list. -/
theorem C12_canonical_writer (ts : List Forbidden) (h : ∀ t ∈ ts, WritableTrace t) :
    Forbidden.read (writeTraces ts) = some (.ok ts) := by
  have htc : ∀ t, WritableTrace t → TraceCells t (traceCells t) ∧ traceCells t ≠ [] ∧
      ∀ c ∈ traceCells t, '\n' ∉ c ∧ '\r' ∉ c := by
    rintro t ⟨h1, h2, h3, h4, h5⟩
    have hmap : (t.pre ++ [t.forbid]).map (fun e => e.marshalText) =
        ((t.pre ++ [t.forbid]).map eventText).map Except.ok := by
      rw [List.map_map]; exact List.map_congr_left fun e _ => eventText_ok e
    have hmem : ∀ c ∈ (t.pre ++ [t.forbid]).map eventText, '\n' ∉ c ∧ '\r' ∉ c := by
      intro c hc
      obtain ⟨e, he, rfl⟩ := List.mem_map.1 hc
      exact (h5 e he).2
    unfold traceCells
    cases hcs : (t.pre ++ [t.forbid]).map eventText with
    | nil => simp at hcs
    | cons c cs =>
      rw [hcs] at hmap hmem
      refine ⟨⟨c, cs, hmap, Or.inr ⟨[], [], by simp, by simp, h1, h2, by simp⟩⟩, by simp, ?_⟩
      intro x hx
      rcases List.mem_cons.1 hx with rfl | hx
      · have := hmem c (by simp)
        simp [h3, h4, this]
      · exact hmem x (by simp [hx])
  refine C12_written_file_reads_back (rows := ts.map traceCells) ?_ ?_ ?_
  · induction ts with
    | nil => exact .nil
    | cons t ts ih =>
      obtain ⟨_, h2, h3⟩ := htc t (h t (by simp))
      obtain ⟨h4, h5⟩ := quoteRow_written h2 h3
      have := FileWritten.row h4 (by intro e; rw [e] at h5; simp at h5) (by rw [h5]; simp) (Or.inl rfl)
        (ih fun t ht => h t (by simp [ht]))
      simpa [writeTraces] using this
  · induction ts with
    | nil => exact .nil
    | cons t ts ih => exact .cons (htc t (h t (by simp))).1 (ih fun t ht => h t (by simp [ht]))
  · intro t ht e he
    exact ((h t ht).2.2.2.2 e he).1

/-- Not vacuous: a two-trace file with blanks, a comment, a blank line and an unterminated last line. -/
example : Forbidden.read c!"# traces\nfoo: a.in.1,  b.out.x\n\nc.call" = some (.ok
    [⟨c!"foo", [⟨⟨c!"a", .in_⟩, .int 1⟩], ⟨⟨c!"b", .out⟩, .enum c!"x"⟩⟩,
     ⟨[], [], ⟨⟨c!"c", .call⟩, .none⟩⟩]) := by decide +kernel

example : WritableTrace ⟨c!"foo", [⟨⟨c!"a", .in_⟩, .int 1⟩], ⟨⟨c!"b", .out⟩, .none⟩⟩ := by
  refine ⟨by decide, noOuterSpace_of_forall (by decide), by decide, by decide, ?_⟩
  intro e he
  simp at he
  rcases he with rfl | rfl
  · exact ⟨⟨⟨⟨by simp, noOuterSpace_of_forall (by decide), by decide⟩, Or.inl rfl⟩, Or.inr trivial⟩,
      by decide, by decide⟩
  · exact ⟨⟨⟨⟨by simp, noOuterSpace_of_forall (by decide), by decide⟩, Or.inr (Or.inl rfl)⟩, Or.inl rfl⟩,
      by decide, by decide⟩

/-- The delimiter condition is needed: a value containing `:` in the first cell is taken for a name separator. -/
theorem C12_colon_needed : ∃ t : Forbidden, (∀ e ∈ t.pre ++ [t.forbid], GoodEvent e) ∧
    ∃ file cells, (t.pre ++ [t.forbid]).map (fun e => e.marshalText) = cells.map Except.ok ∧
      FileWritten [cells] file ∧ Forbidden.read file ≠ some (.ok [t]) := by
  refine ⟨⟨[], [], ⟨⟨c!"a", .out⟩, .enum c!"x:b.in"⟩⟩, ?_, c!"a.out.x:b.in", [c!"a.out.x:b.in"], by decide, ?_, ?_⟩
  · intro e he
    simp at he
    subst he
    refine ⟨⟨⟨by simp, noOuterSpace_of_forall (by decide), by decide⟩, Or.inr (Or.inl rfl)⟩, Or.inr ?_⟩
    refine ⟨noOuterSpace_of_forall (by decide), ?_⟩
    rw [← parseInt_eq_none_iff]; decide
  · refine .final (.last ?_) (by simp) (by simp)
    exact .plain [] _ (by simp) (by intro c r h; simp at h; rw [← h.1]; decide) (by decide)
  · decide +kernel

/-! ### C13 -/

/-- Inserting a comment line after complete, terminated lines changes nothing, whatever the result was. -/
theorem C13_comment_line (a b c : Str) (rows : List (List Str)) (ha : CsvRecords a rows)
    (hterm : a = [] ∨ ∃ a', a = a' ++ ['\n']) (hc : '\n' ∉ c) :
    Forbidden.read (a ++ ('#' :: c ++ '\n' :: b)) = Forbidden.read (a ++ b) :=
  Forbidden.read_append ha hterm (Csv.readRecord_comment hc b)

/-- Inserting a blank line after complete, terminated lines changes nothing, whatever the result was. -/
theorem C13_blank_line (a b e : Str) (rows : List (List Str)) (ha : CsvRecords a rows)
    (hterm : a = [] ∨ ∃ a', a = a' ++ ['\n']) (he : IsEol e) :
    Forbidden.read (a ++ (e ++ b)) = Forbidden.read (a ++ b) :=
  Forbidden.read_append ha hterm (Csv.readRecord_blank he b)

/-- In a file whose lines before the insertion point contain no quote, both insertions are always harmless. -/
theorem C13_no_quotes (a b : Str) (hq : '"' ∉ a) (hterm : a = [] ∨ ∃ a', a = a' ++ ['\n']) :
    (∀ c, '\n' ∉ c → Forbidden.read (a ++ ('#' :: c ++ '\n' :: b)) = Forbidden.read (a ++ b)) ∧
    (∀ e, IsEol e → Forbidden.read (a ++ (e ++ b)) = Forbidden.read (a ++ b)) := by
  obtain ⟨rows, h⟩ := Csv.csvRecords_noQuote a hq
  exact ⟨fun c hc => C13_comment_line a b c rows h hterm hc, fun e he => C13_blank_line a b e rows h hterm he⟩

/-- Not vacuous. -/
example : '"' ∉ c!"a.in\n" ∧ (∃ a', c!"a.in\n" = a' ++ ['\n']) ∧
    Forbidden.read c!"a.in\n# hello\nb.out\n" = Forbidden.read c!"a.in\nb.out\n" ∧
    Forbidden.read c!"a.in\nb.out\n" = some (.ok [⟨[], [], ⟨⟨c!"a", .in_⟩, .none⟩⟩, ⟨[], [], ⟨⟨c!"b", .out⟩, .none⟩⟩]) :=
  ⟨by decide, ⟨c!"a.in", rfl⟩, by decide +kernel, by decide +kernel⟩

/-- The condition on quotes is needed: inside a quoted cell an inserted comment line changes the result. -/
example : Forbidden.read c!"a.in.\"x\n" ≠ Forbidden.read c!"\"a.in.\n#\nx\"" := by decide +kernel

/-- A line of blanks only is not a blank line: it is an error. -/
theorem C13_only_empty_lines_are_blank : ∃ f, Forbidden.read c!"a.in\n \nb.out\n" = some (.error f) :=
  ⟨.err (.badFieldCount 1), by decide +kernel⟩

/-! ### C14 -/

/-- Reading succeeds exactly when every record of the file denotes a trace, and then returns those traces in order. -/
theorem C14_ok_iff (s : Str) (ts : List Forbidden) :
    Forbidden.read s = some (.ok ts) ↔ ∃ rows, CsvRecords s rows ∧ List.Forall₂ RowDenotes rows ts :=
  Forbidden.read_ok_iff s ts

theorem readsAsValue_iff (s : Str) (v : Value) : Value.unmarshalText s = .ok v ↔ ReadsAsValue s v := by
  rw [value_unmarshal_eq]
  constructor
  · intro h
    cases hp : parseInt (trimSpace s) with
    | none =>
      rw [hp] at h
      cases h
      exact ⟨(trimSpace_eq_iff _ _).1 rfl, (parseInt_eq_none_iff _).1 hp⟩
    | some i =>
      rw [hp] at h
      cases h
      exact ⟨_, (trimSpace_eq_iff _ _).1 rfl, (parseInt_eq_some_iff _ _).1 hp⟩
  · intro h
    cases v with
    | none => exact h.elim
    | int i =>
      obtain ⟨t, h1, h2⟩ := h
      rw [(trimSpace_eq_iff _ _).2 h1, (parseInt_eq_some_iff _ _).2 h2]
    | enum t =>
      obtain ⟨h1, h2⟩ := h
      rw [(trimSpace_eq_iff _ _).2 h1, (parseInt_eq_none_iff _).2 h2]

theorem eventText_iff (s : Str) (e : Event) : Event.parse s = .ok e ↔ EventText s e := by
  rw [event_parse_ok_iff]
  unfold EventText
  simp only [readsAsValue_iff]

theorem rowTrace_iff (row : List Str) (t : Forbidden) : RowDenotes row t ↔ RowTrace row t := by
  unfold RowDenotes RowTrace
  refine exists_congr fun c0 => exists_congr fun cs => exists_congr fun t0 => and_congr_right fun _ => and_congr_right fun _ => ?_
  generalize t0 :: cs = l
  generalize t.pre ++ [t.forbid] = es
  induction l generalizing es with
  | nil => cases es <;> simp
  | cons a l ih =>
    cases es with
    | nil => simp
    | cons e es => simp [ih, eventText_iff]

/-- Reading succeeds exactly on the texts of the trace file grammar, and gives exactly the traces described: nothing here refers to the
reader. -/
theorem C14_grammar (s : Str) (ts : List Forbidden) :
    Forbidden.read s = some (.ok ts) ↔ ∃ rows, FileText rows (normalEols s) ∧ List.Forall₂ RowTrace rows ts := by
  rw [C14_ok_iff]
  simp only [Csv.csvRecords_iff]
  have : (RowDenotes : List Str → Forbidden → Prop) = RowTrace := by
    funext r t; exact propext (rowTrace_iff r t)
  rw [this]

/-- A quoted cell over two lines, doubled quotes, stray carriage returns, comments and blank lines. -/
example : Forbidden.read c!"# c\r\n\r\n n: a.out.1 ,\"b.in.x\ny \"\"\"\r\n#end\r" =
    some (.ok [⟨c!"n", [⟨⟨c!"a", .out⟩, .int 1⟩], ⟨⟨c!"b", .in_⟩, .enum c!"x\ny \""⟩⟩]) := by decide +kernel

/-- A record with n cells gives a prefix of n-1 events and one forbidden event. -/
theorem C14_row_shape {s : Str} {ts : List Forbidden} (h : Forbidden.read s = some (.ok ts)) :
    ∃ rows, CsvRecords s rows ∧ rows.length = ts.length ∧
      ∀ (i : Nat) (row : List Str) (t : Forbidden), rows[i]? = some row → ts[i]? = some t → t.pre.length = row.length - 1 ∧ 0 < row.length := by
  obtain ⟨rows, h1, h2⟩ := (C14_ok_iff s ts).1 h
  refine ⟨rows, h1, h2.length_eq, ?_⟩
  intro i row t hr ht
  have : ∀ (rows : List (List Str)) (ts : List Forbidden), List.Forall₂ RowDenotes rows ts → ∀ (i : Nat) (row : List Str) (t : Forbidden),
      rows[i]? = some row → ts[i]? = some t → RowDenotes row t := by
    intro rows ts h
    induction h with
    | nil => intro i row t hr; simp at hr
    | cons h hs ih =>
      intro i row t hr ht
      cases i with
      | zero => simp at hr ht; subst hr; subst ht; exact h
      | succ i => simp at hr ht; exact ih i row t hr ht
  obtain ⟨cell0, cells, text0, rfl, _, hm⟩ := this rows ts h2 i row t hr ht
  have := congrArg List.length hm
  simp at this
  simp [← this]

/-- Reading always ends, with traces or an error. -/
theorem C14_total (s : Str) : ∃ r, Forbidden.read s = some r := Forbidden.readFrom_some s []

/-- Reading fails exactly when, after some records that all denote traces, there is a malformed record: either not
CSV, or a record one of whose cells is not an event; the error is that record's. -/
theorem C14_error_iff (s : Str) (f : Fail) :
    Forbidden.read s = some (.error f) ↔
      ∃ rows ts s', CsvSteps s rows s' ∧ List.Forall₂ RowDenotes rows ts ∧
        (Csv.readRecord s' = some (.bad f) ∨
         ∃ cell0 cells rest name text0 a x b, Csv.readRecord s' = some (.record (cell0 :: cells) rest) ∧
           SplitsName cell0 name text0 ∧ text0 :: cells = a ++ x :: b ∧
           (∀ y ∈ a, ∃ e, Event.parse y = .ok e) ∧ Event.parse x = .error f) := by
  constructor
  · intro h
    induction hn : s.length using Nat.strongRecOn generalizing s with
    | ind n ih =>
      rw [Forbidden.read_cases] at h
      cases hr : Csv.readRecord s with
      | none => obtain ⟨r, hr'⟩ := Csv.readRecord_some s; rw [hr] at hr'; cases hr'
      | some r =>
        rw [hr] at h
        cases r with
        | eof => cases h
        | bad f' => cases h; exact ⟨[], [], s, .nil, .nil, Or.inl hr⟩
        | record row rest =>
          have hlt := (Csv.readRecord_record hr)
          simp only at h
          cases hp : Forbidden.parseRow row with
          | error f' =>
            rw [hp] at h
            cases h
            cases row with
            | nil => exact absurd rfl hlt.2
            | cons c0 cs =>
              rw [Forbidden.parseRow_eq] at hp
              cases hm : List.mapM Event.parse ((Forbidden.firstCell c0).2 :: cs) with
              | ok es => rw [hm] at hp; cases hp
              | error f' =>
                rw [hm] at hp
                cases hp
                obtain ⟨a, x, b, h1, h2, h3⟩ := (Forbidden.mapM_error_iff _ _ _).1 hm
                exact ⟨[], [], s, .nil, .nil, Or.inr ⟨c0, cs, rest, _, _, a, x, b, hr,
                  (Forbidden.firstCell_iff _ _ _).1 rfl, h1, h2, h3⟩⟩
          | ok t =>
            rw [hp] at h
            simp only at h
            cases hread : Forbidden.read rest with
            | none => rw [hread] at h; cases h
            | some q =>
              rw [hread] at h
              cases q with
              | ok ts' => simp [Except.map] at h
              | error f' =>
                simp only [Option.map_some, Except.map, Option.some.injEq, Except.error.injEq] at h
                subst h
                obtain ⟨rows, ts, s', h1, h2, h3⟩ := ih rest.length (by omega) rest hread rfl
                exact ⟨row :: rows, t :: ts, s', .cons hr h1, .cons ((Forbidden.parseRow_ok_iff _ _).1 hp) h2, h3⟩
  · rintro ⟨rows, ts, s', h1, h2, h3⟩
    rw [Forbidden.read_steps h1]
    have hm : rows.mapM Forbidden.parseRow = .ok ts := by
      rw [Forbidden.mapM_ok_iff]
      clear h1 h3
      induction h2 with
      | nil => rfl
      | cons h hs ih => simp [ih, (Forbidden.parseRow_ok_iff _ _).2 h]
    rw [hm]
    simp only
    have : Forbidden.read s' = some (.error f) := by
      rw [Forbidden.read_cases]
      rcases h3 with h3 | ⟨c0, cs, rest, name, text0, a, x, b, h4, h5, h6, h7, h8⟩
      · rw [h3]
      · rw [h4]
        simp only
        rw [Forbidden.parseRow_eq, (Forbidden.firstCell_iff _ _ _).2 h5, (Forbidden.mapM_error_iff _ _ _).2 ⟨a, x, b, h6, h7, h8⟩]
    rw [this]; rfl

theorem event_parse_error {x : Str} {f : Fail} (h : Event.parse x = .error f) :
    f = .err (.badFieldCount 1) ∨ f = .err .invalidEnum := by
  unfold Event.parse Event.unmarshalText at h
  rcases hc : Channel.unmarshalTextWithRemainder Event.zero.channel x with ⟨c, res⟩
  rw [hc] at h
  cases res with
  | ok rest =>
    cases rest with
    | none => simp at h
    | some v =>
      simp only [value_unmarshal_eq] at h
      cases h
  | error f' =>
    simp only [Except.error.injEq] at h
    subst h
    by_cases hdot : '.' ∈ x
    · right
      have := channel_unmarshal_badKind Event.zero.channel x hdot (by
        rintro ⟨c', r', h'⟩
        rw [(channel_unmarshal_ok_iff _ _ _ _).2 h'] at hc
        cases hc)
      rw [hc] at this
      simpa [throwErr] using this
    · left
      rw [channel_unmarshal_noDot _ _ hdot] at hc
      simp [throwErr] at hc
      exact hc.2.symm

/-- The only errors: the CSV reader's two quoting errors, the field-count error and the unknown-kind error.  In
particular `ErrNeedOneEvent` never arises from a file, and nothing panics. -/
theorem C14_errors (s : Str) (f : Fail) (h : Forbidden.read s = some (.error f)) :
    f = .err .csvBareQuote ∨ f = .err .csvQuote ∨ f = .err (.badFieldCount 1) ∨ f = .err .invalidEnum := by
  obtain ⟨rows, ts, s', _, _, h3⟩ := (C14_error_iff s f).1 h
  rcases h3 with h3 | ⟨c0, cs, rest, name, text0, a, x, b, _, _, _, _, h8⟩
  · exact (Csv.readRecord_bad h3).imp_right Or.inl
  · exact Or.inr (Or.inr (event_parse_error h8))

/-- All four errors do occur. -/
example : Forbidden.read c!"a\"b" = some (.error (.err .csvBareQuote)) ∧
    Forbidden.read c!"\"a" = some (.error (.err .csvQuote)) ∧
    Forbidden.read c!"a.in,b" = some (.error (.err (.badFieldCount 1))) ∧
    Forbidden.read c!"a.in\nb.up" = some (.error (.err .invalidEnum)) :=
  ⟨by decide +kernel, by decide +kernel, by decide +kernel, by decide +kernel⟩

end Rtcg
