import Verif.Model.Node

/-
Forbidden traces (internal/trace): equality, naming, expansion into trees, collapsing trees; and
internal/factorise.
-/

namespace Rtcg

/-- trace.Trace, trace.go:15. -/
abbrev Trace := List Event

namespace Trace

/-- (Trace).IsPrefixOf, trace.go:39-52: the loop over the indices of `t`. -/
def isPrefixOf (t other : Trace) : Bool :=
  if other.length < t.length then false
  else go t other
where
  go : Trace → Trace → Bool
  | [], _ => true
  | _ :: _, [] => false   -- not reached: `other` is at least as long
  | e :: t, o :: other => if !e.equals o then false else go t other

/-- (Trace).Equals, trace.go:34-36 -/
def equals (t other : Trace) : Bool := t.length = other.length && t.isPrefixOf other

end Trace

/-- trace.Forbidden, trace.go:65-69. -/
structure Forbidden where
  name : Str
  pre : Trace
  forbid : Event
  deriving DecidableEq, Repr

namespace Forbidden

/-- trace.synthesiseName, trace.go:113-123.  Simplification: the attempt counter is unbounded. -/
def synthesiseName (base : Str) (attempt : Nat) : Str :=
  if base = c!"test" then base ++ decNat attempt
  else if 0 < attempt then base ++ decNat (attempt - 1)
  else base

/-- trace.insertName, trace.go:101-111: the loop from attempt `i` on.  `none`: fuel used up. -/
def insertNameLoop (result : GoMap Str Forbidden) (base : Str) (trace : Forbidden) :
    Nat → Nat → Option (GoMap Str Forbidden)
  | 0, _ => none
  | fuel + 1, i =>
    let name := synthesiseName base i
    match result.get? name with
    | none => some (result.set name trace)
    | some _ => insertNameLoop result base trace fuel (i + 1)

/-- trace.insertName, trace.go:101-111.  One attempt more than there are names taken is enough fuel (proved). -/
def insertName (result : GoMap Str Forbidden) (base : Str) (trace : Forbidden) : Option (GoMap Str Forbidden) :=
  insertNameLoop result base trace (result.length + 1) 0

/-- trace.Name, trace.go:84-99 -/
def nameAll (traces : List Forbidden) : Option (GoMap Str Forbidden) :=
  traces.foldlM (fun result trace =>
    let base := if trace.name = [] then c!"test" else trace.name
    insertName result base trace) []

/-- (Forbidden).Expand, expand.go:9-22: builds the tree from the failure backwards. -/
def expand (t : Forbidden) (name : Str) : Node :=
  let node := Node.testPoint t.forbid [name]
  let node := t.pre.reverse.foldl (fun node e => (Node.inc e [node]).mark [name]) node
  (Node.root [node]).mark [name]

/-- trace.ExpandAll, expand.go:25-29 -/
def expandAll (traces : GoMap Str Forbidden) : GoMap Str Node :=
  overMap (fun k t => (k, t.expand k)) traces

/-- The zero value, trace/trace.go:65-69. -/
def zero : Forbidden := ⟨[], [], Event.zero⟩

/-- trace.collapseNode, collapse.go:41-58.  `*test.Event` panics when the event is nil. -/
def collapseNode (collapsed : Forbidden) (test : Node) : Res (Forbidden × Bool) :=
  if test.outcome = .fail then .ok (collapsed, true)
  else if test.outcome = .pass then
    match test.event with
    | none => .error .panic
    | some e => .ok ({ collapsed with forbid := e }, false)
  else if test.outcome = .inc then
    match test.event with
    | none => .error .panic
    | some e => .ok ({ collapsed with pre := collapsed.pre ++ [e] }, false)
  else throwErr (.badOutcomeInTrace test.outcome.val)

/-- The loop of trace.Collapse, collapse.go:24-36, from the node last reached.  `none`: fuel used up. -/
def collapseLoop : Nat → Forbidden → Node → Option (Res Forbidden)
  | 0, _, _ => none
  | fuel + 1, collapsed, test =>
    match Validate.oneNext test with
    | .error e => some (.error e)
    | .ok test =>
      match Validate.node test with
      | .error e => some (.error e)
      | .ok () =>
        match collapseNode collapsed test with
        | .error e => some (.error e)
        | .ok (collapsed, true) => some (.ok collapsed)
        | .ok (collapsed, false) => collapseLoop fuel collapsed test

/-- trace.Collapse, collapse.go:13-39.  The size of the tree is enough fuel (proved). -/
def collapse (test : Node) : Option (Res Forbidden) :=
  match Validate.root test with
  | .error e => some (.error e)
  | .ok () => collapseLoop test.size zero test

/-- trace.CollapseAll, collapse.go:71-78.  (`getD` never takes its default.) -/
def collapseAll (suite : GoMap Str Node) : Res (GoMap Str Forbidden) :=
  tryOverMapValues (fun n => (collapse n).getD (.error .panic)) suite

end Forbidden

/-! ### internal/factorise -/

namespace Factorise

/-- factorise.Failure, factorise.go:63-66 -/
structure Failure where
  test : Str
  event : Event
  deriving DecidableEq, Repr

/-- (Failure).Node, factorise.go:69-71 -/
def Failure.node (f : Failure) : Node := Node.testPoint f.event [f.test]

/-- factorise.lastEvent, factorise.go:38-46 -/
def lastEvent (after : Trace) : Event :=
  match after.getLast? with
  | some e => e
  | none => Event.zero

/-- factorise.Failures, factorise.go:49-60, in map iteration order -/
def failures (tests : GoMap Str Forbidden) (after : Trace) : List Failure :=
  tests.foldl (fun fs kt => if kt.2.pre.equals after then fs ++ [⟨kt.1, kt.2.forbid⟩] else fs) []

/-- factorise.SpineNodes, factorise.go:14-36 -/
def spineNodes (tests : GoMap Str Forbidden) (after : Trace) : List Node :=
  let last := lastEvent after
  let (inSpines, outputs) := (failures tests after).foldl
    (fun (acc : List Node × List Node) f =>
      let node := f.node
      if f.event.channel.isIn then (acc.1 ++ [Node.inc last [node]], acc.2)
      else (acc.1, acc.2 ++ [node])) ([], [])
  inSpines ++ [Node.inc last outputs]

end Factorise

end Rtcg
