import Mathlib.Data.List.Sort
import Verif.Model.Csv
import Verif.Model.Stm

/-
Reading and writing test suites and state machine suites as JSON (internal/serial, and the struct tags and marshalling
methods of the types involved), and the two programs rtcg-read-traces and rtcg-make-stms that are joined by them.

Here JSON is modelled as values; Model/JsonText has the text layer of encoding/json (scanning, quoting, indentation).
Simplifications, all about inputs no program in scope writes: when an input has several errors, the first one is reported; a field
given twice is decoded twice, the second time into a fresh slice or map.
-/

namespace Rtcg

/-- A JSON value, as encoding/json reads or writes it. (encoding/json, called at serial/serial.go:23-26 and 12-14.) -/
inductive Json where
  | null
  | bool (b : Bool)
  | num (text : Str)
  | str (s : Str)
  | arr (xs : List Json)
  | obj (fields : List (Str × Json))

namespace Json

/-- A struct field as written by encoding/json: left out when `omitempty` applies. (encoding/json, called at serial/serial.go:23-26.) -/
def field (name : Str) (skip : Bool) (v : Json) : List (Str × Json) := if skip then [] else [(name, v)]

/-- encoding/json writes the keys of a map in increasing order. (encoding/json, called at serial/serial.go:23-26.) -/
def sortFields (fs : List (Str × Json)) : List (Str × Json) := fs.insertionSort (fun a b => a.1 ≤ b.1)

/-- What encoding/json (fold.go) takes a character of a field name for: letters in either case are alike, and so are `s` and `ſ`, `k`
and the Kelvin sign. -/
def foldChar (c : Char) : Char :=
  if 'A' ≤ c ∧ c ≤ 'Z' then Char.ofNat (c.toNat + 32)
  else if c = '\u017f' then 's'
  else if c = '\u212a' then 'k'
  else c

/-- Does encoding/json take a key for the name of a struct field (decode.go, object: by itself, or else up to case)?  In the structs
here no two names are alike up to case. -/
def isField (name key : Str) : Bool := key.map foldChar = name.map foldChar

/-- Decode into a string variable; `null` leaves it alone. (encoding/json, called at serial/serial.go:12-14.) -/
def decodeStr (old : Str) : Json → Res Str
  | .null => .ok old
  | .str s => .ok s
  | _ => throwErr .jsonShape

/-- Decode the elements of an array one by one. (encoding/json, called at serial/serial.go:12-14.) -/
def decodeElems {α : Type} (dec : Json → Res α) : List Json → Res (List α)
  | [] => .ok []
  | x :: xs =>
    match dec x with
    | .error f => .error f
    | .ok a =>
      match decodeElems dec xs with
      | .error f => .error f
      | .ok as => .ok (a :: as)

/-- Decode into a slice; `null` makes it nil. (encoding/json, called at serial/serial.go:12-14.) -/
def decodeList {α : Type} (dec : Json → Res α) : Json → Res (List α)
  | .null => .ok []
  | .arr xs => decodeElems dec xs
  | _ => throwErr .jsonShape

/-- Decode the entries of an object into a map, each value into a fresh variable. (encoding/json, called at serial/serial.go:12-14.) -/
def decodeEntries {α : Type} (dec : Json → Res α) : GoMap Str α → List (Str × Json) → Res (GoMap Str α)
  | m, [] => .ok m
  | m, (k, j) :: fs =>
    match dec j with
    | .error f => .error f
    | .ok a => decodeEntries dec (GoMap.set m k a) fs

/-- Decode into a nil map variable; `null` leaves it nil. (encoding/json, called at serial/serial.go:12-14.) -/
def decodeMap {α : Type} (dec : Json → Res α) : Json → Res (GoMap Str α)
  | .null => .ok []
  | .obj fs => decodeEntries dec [] fs
  | _ => throwErr .jsonShape

/-- Decode the fields of an object into a struct, in order; `dec` decodes into the field of that name, if there is one.
(encoding/json, called at serial/serial.go:12-14.) -/
def decodeFields {σ : Type} (dec : σ → Str → Json → Res σ) : σ → List (Str × Json) → Res σ
  | s, [] => .ok s
  | s, (k, j) :: fs =>
    match dec s k j with
    | .error f => .error f
    | .ok s => decodeFields dec s fs

/-- Decode into a struct variable; `null` leaves it alone. (encoding/json, called at serial/serial.go:12-14.) -/
def decodeStruct {σ : Type} (dec : σ → Str → Json → Res σ) (s : σ) : Json → Res σ
  | .null => .ok s
  | .obj fs => decodeFields dec s fs
  | _ => throwErr .jsonShape

/-! ### enumerations, events, channels, values, types: by their text methods -/

/-- Outcome.UnmarshalText (outcome_enum.go:78-86) from a JSON string. -/
def decodeOutcome (old : Outcome) : Json → Res Outcome
  | .null => .ok old
  | .str s => Outcome.parse s
  | _ => throwErr .jsonShape

/-- (*Event).UnmarshalText (event.go:66-82) from a JSON string, through a pointer: allocated when nil, set to nil by
`null`. -/
def decodeEvent (old : Option Event) : Json → Res (Option Event)
  | .null => .ok none
  | .str s =>
    match Event.unmarshalText (old.getD Event.zero) s with
    | (e, none) => .ok (some e)
    | (_, some f) => .error f
  | _ => throwErr .jsonShape

/-- (*Channel).UnmarshalText (channel.go:82-86) from a JSON string. -/
def decodeChannel (old : Channel) : Json → Res Channel
  | .null => .ok old
  | .str s =>
    match Channel.unmarshalText old s with
    | (c, none) => .ok c
    | (_, some f) => .error f
  | _ => throwErr .jsonShape

/-- (*Value).UnmarshalText (value.go:87-109) from a JSON string. -/
def decodeValue (old : Value) : Json → Res Value
  | .null => .ok old
  | .str s => Value.unmarshalText s
  | _ => throwErr .jsonShape

/-- (*RsType).UnmarshalText (rstype.go:83-109) from a JSON string, through a nil pointer. -/
def decodeType : Json → Res (Option RsType)
  | .null => .ok none
  | .str s =>
    match RsType.unmarshalText s with
    | .error f => .error f
    | .ok t => .ok (some t)
  | _ => throwErr .jsonShape

/-- (*RsType).MarshalText (rstype.go:49-55); a nil pointer is `null`. -/
def encodeType : Option RsType → Res Json
  | none => .ok .null
  | some t =>
    match t.marshalText with
    | .error f => .error f
    | .ok s => .ok (.str s)

/-! ### test suites -/

/-- The `event` field of a node, testlang/node.go:9: left out for a nil pointer. -/
def encodeEvent : Option Event → Res (List (Str × Json))
  | none => .ok []
  | some e =>
    match e.marshalText with
    | .error f => .error f
    | .ok s => .ok [(c!"event", .str s)]

/-- Writing a Node, by the tags of testlang/node.go:4-11. -/
def encodeNode : Node → Res Json
  | ⟨id, tests, outcome, event, next⟩ =>
    match encodeEvent event with
    | .error f => .error f
    | .ok ev =>
      match encodeNodes next with
      | .error f => .error f
      | .ok ns => .ok (.obj
          (field c!"id" (id = []) (.str id)
            ++ field c!"tests" (tests = []) (.arr (tests.map .str))
            ++ field c!"outcome" (outcome.val = 0) (.str outcome.string)
            ++ ev
            ++ field c!"next" (ns.length = 0) (.arr ns)))
where
  encodeNodes : List Node → Res (List Json)
  | [] => .ok []
  | n :: ns =>
    match encodeNode n with
    | .error f => .error f
    | .ok j =>
      match encodeNodes ns with
      | .error f => .error f
      | .ok js => .ok (j :: js)

/-- The zero value of a Node. (testlang/node.go:4-11.) -/
def zeroNode : Node := ⟨[], [], .unset, none, []⟩

mutual
/-- Reading a Node, by the tags of testlang/node.go:4-11; `null` leaves the zero value. -/
def decodeNode : Json → Res Node
  | .null => .ok zeroNode
  | .obj fs => decodeNodeFields zeroNode fs
  | _ => throwErr .jsonShape
/-- The fields, in order. (testlang/node.go:4-11.) -/
def decodeNodeFields (n : Node) : List (Str × Json) → Res Node
  | [] => .ok n
  | f :: fs =>
    match decodeNodeField n f with
    | .error e => .error e
    | .ok n => decodeNodeFields n fs
/-- One field, by its name; unknown ones are skipped. (testlang/node.go:5-10.) -/
def decodeNodeField (n : Node) : Str × Json → Res Node
  | (k, j) =>
    if isField c!"id" k then (decodeStr n.id j).map fun x => { n with id := x }
    else if isField c!"tests" k then (decodeList (decodeStr []) j).map fun x => { n with tests := x }
    else if isField c!"outcome" k then (decodeOutcome n.outcome j).map fun x => { n with outcome := x }
    else if isField c!"event" k then (decodeEvent n.event j).map fun x => { n with event := x }
    else if isField c!"next" k then (decodeNodeList j).map fun x => { n with next := x }
    else .ok n
/-- A slice of nodes. (testlang/node.go:10.) -/
def decodeNodeList : Json → Res (List Node)
  | .null => .ok []
  | .arr xs => decodeNodes xs
  | _ => throwErr .jsonShape
/-- The elements, in order. (testlang/node.go:10.) -/
def decodeNodes : List Json → Res (List Node)
  | [] => .ok []
  | j :: js =>
    match decodeNode j with
    | .error e => .error e
    | .ok n =>
      match decodeNodes js with
      | .error e => .error e
      | .ok ns => .ok (n :: ns)
end

/-- Reading a `*Node`: `null` is the nil pointer. (The values of a testlang.Suite, testlang/testlang.go:12.) -/
def decodeNodePtr : Json → Res (Option Node)
  | .null => .ok none
  | j => (decodeNode j).map some

/-- Writing a `*Node`. (The values of a testlang.Suite, testlang/testlang.go:12.) -/
def encodeNodePtr : Option Node → Res Json
  | none => .ok .null
  | some n => encodeNode n

/-- Writing the entries of a map, each by `enc`, in iteration order; the sorting comes after. (encoding/json, called at serial/serial.go:23-26.) -/
def encodeEntries {α : Type} (enc : α → Res Json) : GoMap Str α → Res (List (Str × Json))
  | [] => .ok []
  | (k, a) :: m =>
    match enc a with
    | .error f => .error f
    | .ok j =>
      match encodeEntries enc m with
      | .error f => .error f
      | .ok fs => .ok ((k, j) :: fs)

/-- Writing a map: an object with its keys in increasing order.  Simplification: a nil map is written `null`, here it
is an empty object like every empty map (both read back alike). (encoding/json, called at serial/serial.go:23-26.) -/
def encodeMap {α : Type} (enc : α → Res Json) (m : GoMap Str α) : Res Json :=
  (encodeEntries enc m).map fun fs => .obj (sortFields fs)

/-- (*Suite).Write, testlang.go:26-32 and serial.go:22-31 -/
def encodeSuite (s : Validate.Suite) : Res Json := encodeMap encodeNodePtr s

/-- testlang.ReadSuite, testlang.go:15-23 and serial.go:11-19 -/
def decodeSuite (j : Json) : Res Validate.Suite := decodeMap decodeNodePtr j

/-! ### state machine suites -/

/-- Writing the elements of a slice. (encoding/json, called at serial/serial.go:23-26.) -/
def encodeElems {α : Type} (enc : α → Res Json) : List α → Res (List Json)
  | [] => .ok []
  | a :: as =>
    match enc a with
    | .error f => .error f
    | .ok j =>
      match encodeElems enc as with
      | .error f => .error f
      | .ok js => .ok (j :: js)

/-- Writing a Transition, transition.go:13-17.  `omitempty` never applies to a struct, so the value is always written, by
(*Value).MarshalText (value.go:56-67), which refuses absent values. -/
def encodeTransition (t : Transition) : Res Json :=
  match t.value.marshalText with
  | .error f => .error f
  | .ok s => .ok (.obj ((c!"value", .str s) :: field c!"next" (t.next = []) (.str t.next)))

/-- One field of a Transition, transition.go:13-17. -/
def decodeTransitionField (t : Transition) (k : Str) (j : Json) : Res Transition :=
  if isField c!"value" k then (decodeValue t.value j).map fun x => { t with value := x }
  else if isField c!"next" k then (decodeStr t.next j).map fun x => { t with next := x }
  else .ok t

/-- Reading a Transition. (stm/transition/transition.go:13-17.) -/
def decodeTransition (j : Json) : Res Transition := decodeStruct decodeTransitionField ⟨.none, []⟩ j

/-- Writing a Set, transition/set.go:12-14 and 22-25; the embedded BaseSet's field comes first. -/
def encodeTSet (t : TSet) : Res Json :=
  match encodeElems encodeTransition t.transitions with
  | .error f => .error f
  | .ok ts => .ok (.obj ((c!"channel", .str t.channel.marshalText) :: field c!"transitions" (ts.length = 0) (.arr ts)))

/-- One field of a Set, transition/set.go:12-14 and 22-25. -/
def decodeTSetField (t : TSet) (k : Str) (j : Json) : Res TSet :=
  if isField c!"channel" k then (decodeChannel t.channel j).map fun x => { t with channel := x }
  else if isField c!"transitions" k then (decodeList decodeTransition j).map fun x => { t with transitions := x }
  else .ok t

/-- Reading a Set. (stm/transition/set.go:12-26.) -/
def decodeTSet (j : Json) : Res TSet := decodeStruct decodeTSetField ⟨Channel.zero, []⟩ j

/-- (*Verdict).MarshalJSON, verdict.go:106-119 -/
def encodeVerdict (v : Verdict) : Res Json := encodeMap (fun o => .ok (.str o.string)) v

/-- The loop of (*Verdict).UnmarshalJSON, verdict.go:131-139: in the iteration order of the map of texts. -/
def decodeVerdictLoop : Verdict → GoMap Str Str → Res Verdict
  | v, [] => .ok v
  | v, (k, s) :: m =>
    match Outcome.parse s with
    | .error f => .error f
    | .ok o => decodeVerdictLoop (GoMap.set v k o) m

/-- (*Verdict).UnmarshalJSON, verdict.go:122-142 -/
def decodeVerdict (j : Json) : Res Verdict :=
  match decodeMap (decodeStr []) j with
  | .error f => .error f
  | .ok m => decodeVerdictLoop [] m

/-- Writing a State, state.go:13-25.  The verdict pointer is not nil (see `State`), so it is always written. -/
def encodeState (s : State) : Res Json :=
  match encodeElems encodeTSet s.transitionSets with
  | .error f => .error f
  | .ok ts =>
    match encodeVerdict s.verdict with
    | .error f => .error f
    | .ok v => .ok (.obj ((c!"id", .str s.id) :: (field c!"transitionSets" (ts.length = 0) (.arr ts) ++ [(c!"verdicts", v)])))

/-- One field of a State, state.go:13-25. -/
def decodeStateField (s : State) (k : Str) (j : Json) : Res State :=
  if isField c!"id" k then (decodeStr s.id j).map fun x => { s with id := x }
  else if isField c!"transitionSets" k then (decodeList decodeTSet j).map fun x => { s with transitionSets := x }
  else if isField c!"verdicts" k then (decodeVerdict j).map fun x => { s with verdict := x }
  else .ok s

/-- Reading a `*State`.  `null` is a nil pointer and a state without verdicts has a nil pointer there: both are kept apart, in
`missing`, and represented here by empty values. (stm/state.go:13-25.) -/
def decodeState : Json → Res State
  | .null => .ok ⟨[], [], []⟩
  | .obj fs => decodeFields decodeStateField ⟨[], [], []⟩ fs
  | _ => throwErr .jsonShape

/-- Writing a TypeMap, stm.go:36 -/
def encodeTypes (m : TypeMap) : Res Json := encodeMap encodeType m

/-- Reading a TypeMap, stm.go:36 -/
def decodeTypes (j : Json) : Res TypeMap := decodeMap decodeType j

/-- (*Set).MarshalJSON, structure/set.go:43-50 -/
def encodeSet (s : GoSet Str) : Json := .arr ((GoSet.values s).map .str)

/-- (*Set).UnmarshalJSON, structure/set.go:53-65 -/
def decodeSet (j : Json) : Res (GoSet Str) := (decodeList (decodeStr []) j).map fun vs => GoSet.add [] vs

/-- Writing an Stm, stm.go:23-34 -/
def encodeStm (m : Stm) : Res Json :=
  match encodeElems encodeState m.states with
  | .error f => .error f
  | .ok ss =>
    match encodeTypes m.types with
    | .error f => .error f
    | .ok ty => .ok (.obj [(c!"states", .arr ss), (c!"types", ty), (c!"tests", encodeSet m.tests)])

/-- One field of an Stm, stm.go:23-34. -/
def decodeStmField (m : Stm) (k : Str) (j : Json) : Res Stm :=
  if isField c!"states" k then (decodeList decodeState j).map fun x => { m with states := x }
  else if isField c!"types" k then (decodeTypes j).map fun x => { m with types := x }
  else if isField c!"tests" k then (decodeSet j).map fun x => { m with tests := x }
  else .ok m

/-- Reading a `*Stm`.  `null` is a nil pointer, see `missing`. (stm/stm.go:23-33.) -/
def decodeStm : Json → Res Stm
  | .null => .ok ⟨[], [], []⟩
  | .obj fs => decodeFields decodeStmField ⟨[], [], []⟩ fs
  | _ => throwErr .jsonShape

/-- (*Suite).Write, stm/suite.go:28-34 -/
def encodeStmSuite (s : StmSuite) : Res Json :=
  match encodeTypes s.types with
  | .error f => .error f
  | .ok ty =>
    match encodeMap encodeStm s.tests with
    | .error f => .error f
    | .ok ts => .ok (.obj (field c!"types" (s.types.length = 0) ty ++ field c!"tests" (s.tests.length = 0) ts))

/-- One field of a stm.Suite, stm/suite.go:11-14. -/
def decodeStmSuiteField (s : StmSuite) (k : Str) (j : Json) : Res StmSuite :=
  if isField c!"types" k then (decodeTypes j).map fun x => { s with types := x }
  else if isField c!"tests" k then (decodeMap decodeStm j).map fun x => { s with tests := x }
  else .ok s

/-- stm.ReadSuite, stm/suite.go:17-25 -/
def decodeStmSuite (j : Json) : Res StmSuite := decodeStruct decodeStmSuiteField ⟨[], []⟩ j

/-! #### nil pointers in suites that are read -/

/-- The pointers that a suite read from JSON may leave nil: a machine (stm/suite.go:13) or state (stm.go:27), or the verdict of a state
(state.go:24) -/
inductive Missing where
  | machine
  | verdict
  deriving DecidableEq, Repr

/-- What the last field of that name holds. (encoding/json, called at serial/serial.go:12-14.) -/
def lastField (name : Str) (fs : List (Str × Json)) : Option Json := ((fs.filter fun f => isField name f.1).getLast?).map (·.2)

/-- Is the `*State` read from it nil?  state.go, stm.go:27 -/
def isNull : Json → Bool
  | .null => true
  | _ => false

/-- Does the State read from it have a nil verdict?  state.go:24 -/
def noVerdict : Json → Bool
  | .obj fs => ((lastField c!"verdicts" fs).map isNull).getD true
  | _ => false

/-- What the `*Stm` read from it lacks; a nil state is noticed before a nil verdict. (stm/stm.go:23-33.) -/
def missingIn : Json → Option Missing
  | .null => some .machine
  | .obj fs =>
    match lastField c!"states" fs with
    | some (.arr xs) => if xs.any isNull then some .machine else if xs.any noVerdict then some .verdict else none
    | _ => none
  | _ => none

/-- What each test of the stm.Suite read from it lacks, stm/suite.go:11-14 -/
def missing (j : Json) (test : Str) : Option Missing :=
  match j with
  | .obj fs =>
    match lastField c!"tests" fs with
    | some (.obj ts) => ((ts.filter fun t => t.1 = test).getLast?).bind fun t => missingIn t.2
    | _ => none
  | _ => none

end Json

/-! ### the programs -/

/-- What rtcg-read-traces writes for a traces file, cmd/rtcg-read-traces/main.go:20-49.  (`getD` never takes its
default.) -/
def readTracesProgram (file : Str) : Res Json :=
  match (Forbidden.read file).getD (.error .panic) with
  | .error f => .error f
  | .ok traces =>
    match Forbidden.nameAll traces with
    | none => .error .panic   -- fuel: never
    | some named => Json.encodeSuite ((Forbidden.expandAll named).map fun kn => (kn.1, some kn.2))

/-- What rtcg-make-stms writes for a test suite, cmd/rtcg-make-stms/main.go:48-91 -/
def makeStmsProgram (input : Json) : Res Json :=
  match Json.decodeSuite input with
  | .error f => .error f
  | .ok s =>
    match Validate.fullSuite s with
    | .error f => .error f
    | .ok vs =>
      match Builder.zero.buildSuite vs with
      | .error f => .error f
      | .ok (_, stms) => Json.encodeStmSuite stms

end Rtcg
