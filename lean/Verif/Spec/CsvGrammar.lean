import Verif.Spec.Csv
import Mathlib.Data.List.Forall2

/-
The grammar of trace files, exactly: unlike `FileWritten` (what a writer may write) it covers every text the reader is meant to accept,
including quoted cells over several lines, stray carriage returns and a comment on an unterminated last line.
-/

namespace Rtcg.Spec

open Rtcg

/-- A text with its line ends normalised: `\r\n` is `\n`, and one `\r` at the very end of the text does not count. -/
def normalEols : Str → Str
  | [] => []
  | [c] => if c = '\r' then [] else [c]
  | c :: d :: s => if c = '\r' ∧ d = '\n' then '\n' :: normalEols s else c :: normalEols (d :: s)

/-- A cell with its content and its text: blanks, then either the bare content, which does not start with a blank and has no comma, quote
or line end, or the content between quotes, with its quotes doubled. -/
inductive CellText : Str → Str → Prop
  | plain (pad t : Str) (hpad : ∀ c ∈ pad, white c = true ∧ c ≠ '\n')
      (hstart : ∀ c r, t = c :: r → white c = false) (hdelim : ',' ∉ t ∧ '"' ∉ t ∧ '\n' ∉ t) : CellText t (pad ++ t)
  | quoted (pad t : Str) (hpad : ∀ c ∈ pad, white c = true ∧ c ≠ '\n') : CellText t (pad ++ '"' :: (escapeQuotes t ++ ['"']))

/-- A row: cells separated by commas. -/
inductive RowText : List Str → Str → Prop
  | last {t w : Str} (h : CellText t w) : RowText [t] w
  | more {t w l : Str} {ts : List Str} (h : CellText t w) (hs : RowText ts l) : RowText (t :: ts) (w ++ ',' :: l)

/-- A file (line ends normalised): rows, comment lines and blank lines, each ended by a line end, which the last may lack. -/
inductive FileText : List (List Str) → Str → Prop
  | nil : FileText [] []
  | final {r : List Str} {l : Str} (h : RowText r l) (hne : l ≠ []) (hc : l.head? ≠ some '#') : FileText [r] l
  | row {r : List Str} {l f : Str} {rs : List (List Str)} (h : RowText r l) (hne : l ≠ []) (hc : l.head? ≠ some '#')
      (hf : FileText rs f) : FileText (r :: rs) (l ++ '\n' :: f)
  | comment {c f : Str} {rs : List (List Str)} (hc : '\n' ∉ c) (hf : FileText rs f) : FileText rs ('#' :: (c ++ '\n' :: f))
  | lastComment {c : Str} (hc : '\n' ∉ c) : FileText [] ('#' :: c)
  | blank {f : Str} {rs : List (List Str)} (hf : FileText rs f) : FileText rs ('\n' :: f)

/-- The value that a text denotes, outer blanks aside: a 64-bit integer if it is one, otherwise the text as an enumeration member. -/
def ReadsAsValue (s : Str) : Value → Prop
  | .none => False
  | .int i => ∃ t, Stripped s t ∧ DenotesInt t i.toInt
  | .enum t => Stripped s t ∧ ¬ ReadsAsInt64 t

/-- The event that a text denotes: a channel, and the value after the second dot, if there is one. -/
def EventText (text : Str) (e : Event) : Prop :=
  (ReadsAsChannel text e.channel none ∧ e.value = .none) ∨
  (∃ r, ReadsAsChannel text e.channel (some r) ∧ ReadsAsValue r e.value)

/-- The trace that a row denotes. -/
def RowTrace (row : List Str) (t : Forbidden) : Prop :=
  ∃ cell0 cells text0, row = cell0 :: cells ∧ SplitsName cell0 t.name text0 ∧
    List.Forall₂ EventText (text0 :: cells) (t.pre ++ [t.forbid])

end Rtcg.Spec
