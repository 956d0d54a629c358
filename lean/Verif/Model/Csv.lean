import Verif.Model.Trace

/-
Reading trace files: the reader of Go's encoding/csv in the configuration of trace/read.go:38-45
(Comma ',', Comment '#', TrimLeadingSpace, no LazyQuotes, FieldsPerRecord -1), and trace.Read itself.
encoding/csv is modelled from its source (readLine, readRecord); I/O errors other than end of file are not
modelled.
-/

namespace Rtcg
namespace Csv

/-- Drop one trailing `\r` (csv.Reader.readLine: `\r\n` becomes `\n`, and `\r` before end of file goes). (encoding/csv, set up at trace/read.go:38-45.) -/
def dropCR (s : Str) : Str :=
  match s.getLast? with
  | some '\r' => s.dropLast
  | _ => s

/-- csv.Reader.readLine: the next line including its normalised `\n`, and what follows; `none` at end of file. (encoding/csv, set up at trace/read.go:38-45.) -/
def readLine (s : Str) : Option (Str × Str) :=
  if s = [] then none
  else match cut '\n' s with
    | some (a, rest) => some (dropCR a ++ ['\n'], rest)
    | none => some (dropCR s, [])

/-- `field[:len(field)-lengthNL(field)]`. (encoding/csv, set up at trace/read.go:38-45.) -/
def chompNL (line : Str) : Str :=
  match line.getLast? with
  | some '\n' => line.dropLast
  | _ => line

/-- Position of readRecord's parser: at the start of a field, or inside a quoted field with the text so far. (encoding/csv, set up at trace/read.go:38-45.) -/
inductive Mode where
  | field
  | quoted (buf : Str)

/-- The state of csv.Reader.readRecord's field loop: `line` is the unread part of the current line, `rest` the
following input, `acc` the fields so far. (encoding/csv, set up at trace/read.go:38-45.) -/
structure PState where
  line : Str
  rest : Str
  acc : List Str
  mode : Mode

/-- One iteration of the field loop (`.field`) or of the quoted-field loop (`.quoted`) of
csv.Reader.readRecord.  The result is the record and the input after it. (encoding/csv, set up at trace/read.go:38-45.) -/
def parseStep (s : PState) : PState ⊕ Res (List Str × Str) :=
  match s.mode with
  | .field =>
    let line := trimLeft s.line
    if line.head? = some '"' then .inl { s with line := line.tail, mode := .quoted [] }
    else match cut ',' line with
      | some (f, line') =>
        if '"' ∈ f then .inr (throwErr .csvBareQuote)
        else .inl { s with line := line', acc := s.acc ++ [f] }
      | none =>
        let f := chompNL line
        if '"' ∈ f then .inr (throwErr .csvBareQuote)
        else .inr (.ok (s.acc ++ [f], s.rest))
  | .quoted buf =>
    match cut '"' s.line with
    | some (a, line') =>
      let buf := buf ++ a
      if line'.head? = some '"' then .inl { s with line := line'.tail, mode := .quoted (buf ++ ['"']) }
      else if line'.head? = some ',' then .inl { s with line := line'.tail, acc := s.acc ++ [buf], mode := .field }
      else if line' = [] ∨ line' = ['\n'] then .inr (.ok (s.acc ++ [buf], s.rest))
      else .inr (throwErr .csvQuote)
    | none =>
      if s.line = [] then .inr (throwErr .csvQuote)
      else match readLine s.rest with
        | none => .inl { s with line := [], rest := [], mode := .quoted (buf ++ s.line) }
        | some (l, r) => .inl { s with line := l, rest := r, mode := .quoted (buf ++ s.line) }

/-- The field loops of csv.Reader.readRecord on a line.  Each iteration consumes input, so the fuel is enough
(proved). (encoding/csv, set up at trace/read.go:38-45.) -/
def parseRecord (line rest : Str) : Option (Res (List Str × Str)) :=
  loop parseStep (line.length + rest.length + 1) ⟨line, rest, [], .field⟩

/-- What csv.Reader.Read returns: end of file, an error, or a record with the remaining input. (encoding/csv, set up at trace/read.go:38-45.) -/
inductive ReadResult where
  | eof
  | bad (f : Fail)
  | record (row : List Str) (rest : Str)
  deriving DecidableEq

/-- One iteration of the line-skipping loop of csv.Reader.readRecord, and the parsing of the line it ends with. (encoding/csv, set up at trace/read.go:38-45.) -/
def recordStep (s : Str) : Str ⊕ ReadResult :=
  match readLine s with
  | none => .inr .eof
  | some (line, rest) =>
    if line.head? = some '#' then .inl rest
    else if line = [] ∨ line = ['\n'] then .inl rest
    else match parseRecord line rest with
      | none => .inr (.bad .panic)   -- fuel: never (proved)
      | some (.error f) => .inr (.bad f)
      | some (.ok (row, rest)) => .inr (.record row rest)

/-- csv.Reader.Read.  Every iteration consumes a line, so the fuel is enough (proved). (encoding/csv, set up at trace/read.go:38-45.) -/
def readRecord (s : Str) : Option ReadResult := loop recordStep (s.length + 1) s

end Csv

namespace Forbidden

/-- trace.tryParseName, trace/read.go:75-82: the new name (if any) and the rest of the cell. -/
def tryParseName (cell : Str) (trace : Forbidden) : Str × Forbidden :=
  match cut ':' cell with
  | some (name, rest) => (trimSpace rest, { trace with name := trimSpace name })
  | none => (cell, trace)

/-- `*selectEvent(index, prefixLen, trace)`, trace/read.go:84-90; out of range panics -/
def getEvent (index prefixLen : Nat) (trace : Forbidden) : Res Event :=
  if index = prefixLen then .ok trace.forbid
  else match trace.pre[index]? with
    | some e => .ok e
    | none => .error .panic

/-- Writing through the pointer from selectEvent, trace/read.go:84-90 -/
def setEvent (index prefixLen : Nat) (trace : Forbidden) (e : Event) : Forbidden :=
  if index = prefixLen then { trace with forbid := e }
  else { trace with pre := trace.pre.set index e }

/-- The loop of trace.parseRow, trace/read.go:60-70, from cell `index` on -/
def parseCells (prefixLen : Nat) : Nat → List Str → Forbidden → Res Forbidden
  | _, [], trace => .ok trace
  | index, cell :: cells, trace =>
    let (cell, trace) := if index = 0 then tryParseName cell trace else (cell, trace)
    match getEvent index prefixLen trace with
    | .error f => .error f
    | .ok old =>
      match Event.unmarshalText old cell with
      | (_, some f) => .error f
      | (e, none) => parseCells prefixLen (index + 1) cells (setEvent index prefixLen trace e)

/-- trace.parseRow, trace/read.go:47-73 -/
def parseRow (row : List Str) : Res Forbidden :=
  if row.length = 0 then throwErr .needOneEvent
  else
    let prefixLen := row.length - 1
    parseCells prefixLen 0 row ⟨[], List.replicate prefixLen Event.zero, Event.zero⟩

/-- One iteration of the loop of trace.Read, trace/read.go:19-35. -/
def readStep (s : Str × List Forbidden) : (Str × List Forbidden) ⊕ Res (List Forbidden) :=
  match Csv.readRecord s.1 with
  | none => .inr (.error .panic)   -- fuel: never (proved)
  | some .eof => .inr (.ok s.2)
  | some (.bad f) => .inr (.error f)
  | some (.record row rest) =>
    match parseRow row with
    | .error f => .inr (.error f)
    | .ok t => .inl (rest, s.2 ++ [t])

/-- trace.Read, trace/read.go:14-36.  Every iteration consumes a line, so the fuel is enough (proved).  On success
the traces, on failure nothing but the error. -/
def read (s : Str) : Option (Res (List Forbidden)) := loop readStep (s.length + 1) (s, [])

end Forbidden
end Rtcg
