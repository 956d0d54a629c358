import Verif.Model.Csv
import Verif.Spec.Lang

/-
The trace file format as a writer's grammar (README and trace.go:1-5): what counts as a file for given rows, and as a
row for a given trace.
-/

namespace Rtcg.Spec

open Rtcg

/-- Doubling of quotes inside a quoted cell. -/
def escapeQuotes : Str → Str
  | [] => []
  | c :: s => if c = '"' then '"' :: '"' :: escapeQuotes s else c :: escapeQuotes s

/-- `written` is a way of writing a cell with content `t`: after any leading blanks either the bare content, or the
content between quotes. -/
inductive CellWritten : Str → Str → Prop
  | plain (pad t : Str) (hpad : ∀ c ∈ pad, white c = true ∧ c ≠ '\n' ∧ c ≠ '\r')
      (hstart : ∀ c r, t = c :: r → white c = false)
      (hdelim : ',' ∉ t ∧ '"' ∉ t ∧ '\n' ∉ t ∧ '\r' ∉ t) : CellWritten t (pad ++ t)
  | quoted (pad t : Str) (hpad : ∀ c ∈ pad, white c = true ∧ c ≠ '\n' ∧ c ≠ '\r')
      (hnl : '\n' ∉ t ∧ '\r' ∉ t) : CellWritten t (pad ++ '"' :: escapeQuotes t ++ ['"'])

/-- `line` is a way of writing a row with the given cells: separated by commas. -/
inductive RowWritten : List Str → Str → Prop
  | last {t w : Str} (h : CellWritten t w) : RowWritten [t] w
  | more {t w l : Str} {ts : List Str} (h : CellWritten t w) (hs : RowWritten ts l) :
      RowWritten (t :: ts) (w ++ ',' :: l)

/-- A line end. -/
def IsEol (e : Str) : Prop := e = ['\n'] ∨ e = ['\r', '\n']

/-- `file` is a way of writing the given rows: one line each, with comment lines and blank lines in between; the
last line need not be terminated. -/
inductive FileWritten : List (List Str) → Str → Prop
  | nil : FileWritten [] []
  | final {r : List Str} {l : Str} (h : RowWritten r l) (hne : l ≠ []) (hc : l.head? ≠ some '#') : FileWritten [r] l
  | row {r : List Str} {l e f : Str} {rs : List (List Str)} (h : RowWritten r l) (hne : l ≠ [])
      (hc : l.head? ≠ some '#') (he : IsEol e) (hf : FileWritten rs f) : FileWritten (r :: rs) (l ++ e ++ f)
  | comment {c f : Str} {rs : List (List Str)} (hc : '\n' ∉ c) (hf : FileWritten rs f) :
      FileWritten rs ('#' :: c ++ '\n' :: f)
  | blank {e f : Str} {rs : List (List Str)} (he : IsEol e) (hf : FileWritten rs f) : FileWritten rs (e ++ f)

/-- `cells` is the row of a trace: one event text per cell, the first with an optional name before a colon. -/
def TraceCells (t : Forbidden) (cells : List Str) : Prop :=
  ∃ c0 texts,
    (t.pre ++ [t.forbid]).map (fun e => e.marshalText) = (c0 :: texts).map Except.ok ∧
    ((t.name = [] ∧ ':' ∉ c0 ∧ cells = c0 :: texts) ∨
     (∃ sp1 sp2, (∀ c ∈ sp1, white c = true) ∧ (∀ c ∈ sp2, white c = true) ∧
        ':' ∉ t.name ∧ NoOuterSpace t.name ∧ cells = (t.name ++ sp1 ++ ':' :: sp2 ++ c0) :: texts))

/-- The records of a file, in order, as the CSV reader delivers them up to the end of the file. -/
inductive CsvRecords : Str → List (List Str) → Prop
  | eof {s : Str} (h : Csv.readRecord s = some .eof) : CsvRecords s []
  | cons {s rest : Str} {row : List Str} {rows : List (List Str)}
      (h : Csv.readRecord s = some (.record row rest)) (hs : CsvRecords rest rows) : CsvRecords s (row :: rows)

/-- Reading the records `rows` from `s` leaves `s'`. -/
inductive CsvSteps : Str → List (List Str) → Str → Prop
  | nil {s : Str} : CsvSteps s [] s
  | cons {s rest s' : Str} {row : List Str} {rows : List (List Str)}
      (h : Csv.readRecord s = some (.record row rest)) (hs : CsvSteps rest rows s') : CsvSteps s (row :: rows) s'

/-- The optional name and the first event text of a first cell. -/
def SplitsName (cell name text : Str) : Prop :=
  (':' ∉ cell ∧ name = [] ∧ text = cell) ∨
  (∃ a b, cell = a ++ ':' :: b ∧ ':' ∉ a ∧ Stripped a name ∧ Stripped b text)

/-- What trace a row denotes: as many events as cells, the last one forbidden, the others the prefix. -/
def RowDenotes (row : List Str) (t : Forbidden) : Prop :=
  ∃ cell0 cells text0, row = cell0 :: cells ∧ SplitsName cell0 t.name text0 ∧
    (text0 :: cells).map Event.parse = (t.pre ++ [t.forbid]).map Except.ok

end Rtcg.Spec
