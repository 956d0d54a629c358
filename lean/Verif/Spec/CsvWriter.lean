import Verif.Spec.Csv

/-
A concrete writer of trace files: every cell quoted, every first cell with its `name:` part, every line terminated.
It is one of the ways of writing allowed by `FileWritten`.
-/

namespace Rtcg.Spec

open Rtcg

/-- A cell between quotes. -/
def quoteCell (t : Str) : Str := '"' :: escapeQuotes t ++ ['"']

/-- Cells between quotes, separated by commas. -/
def quoteRow : List Str → Str
  | [] => []
  | [t] => quoteCell t
  | t :: ts => quoteCell t ++ ',' :: quoteRow ts

/-- The text of an event (`[]` never arises: see `event_marshal_total`). -/
def eventText (e : Event) : Str :=
  match e.marshalText with
  | .ok t => t
  | .error _ => []

/-- The cells of a trace: the events' texts, the first one after `name:`. -/
def traceCells (t : Forbidden) : List Str :=
  match (t.pre ++ [t.forbid]).map eventText with
  | [] => []
  | c :: cs => (t.name ++ ':' :: c) :: cs

/-- The whole file, one line per trace. -/
def writeTraces (ts : List Forbidden) : Str := ts.flatMap (fun t => quoteRow (traceCells t) ++ ['\n'])

/-- A trace that the format can carry: its name avoids the name separator and outer blanks, its events survive
their text form, and nothing contains a line end. -/
def WritableTrace (t : Forbidden) : Prop :=
  ':' ∉ t.name ∧ NoOuterSpace t.name ∧ '\n' ∉ t.name ∧ '\r' ∉ t.name ∧
  ∀ e ∈ t.pre ++ [t.forbid], GoodEvent e ∧ '\n' ∉ eventText e ∧ '\r' ∉ eventText e

end Rtcg.Spec
