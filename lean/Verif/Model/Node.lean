import Verif.Model.Lang

/-
Test trees (testlang/node.go), walking them (testlang/walk.go), validation (internal/validate) and the
small data structures of internal/structure.
-/

namespace Rtcg

/-- testlang.Node, testlang/node.go:4-11.  `[]string` and `[]Node` are lists (nil and empty slices are not
distinguished: no function in scope does, except JSON's `omitempty`, which treats them alike).  `Event` is a
pointer, so an `Option`. -/
structure Node where
  id : Str
  tests : List Str
  outcome : Outcome
  event : Option Event
  next : List Node

namespace Node

/-- testlang.NewNode, testlang/node.go:48-50 -/
def new (outcome : Outcome) (event : Option Event) (next : List Node) : Node :=
  { id := [], tests := [], outcome, event, next }

/-- testlang.Root, testlang/node.go:14-17 -/
def root (next : List Node) : Node := new .unset none next
/-- testlang.Pass, testlang/node.go:20-22 -/
def pass (event : Event) (next : List Node) : Node := new .pass (some event) next
/-- testlang.Inc, testlang/node.go:25-27 -/
def inc (event : Event) (next : List Node) : Node := new .inc (some event) next
/-- testlang.Fail, testlang/node.go:30-32 -/
def fail : Node := new .fail none []

/-- (*Node).Mark, testlang/node.go:53-57 -/
def mark (n : Node) (tests : List Str) : Node := { n with tests := tests }

/-- testlang.TestPoint, testlang/node.go:35-43 -/
def testPoint (event : Event) (tests : List Str) : Node :=
  (pass event [fail.mark tests]).mark tests

end Node

/-! ### structure.Stack (structure/stack.go) -/

/-- structure.Stack, stack.go:4-7.  The backing slice in push order plus the separate count. -/
structure Stack (α : Type) where
  items : List α
  count : Nat
  deriving Repr

namespace Stack
variable {α : Type}

/-- The zero value, structure/stack.go:4-7. -/
def empty : Stack α := ⟨[], 0⟩

/-- stack.go:10-13 -/
def push (s : Stack α) (item : α) : Stack α := ⟨s.items ++ [item], s.count + 1⟩

/-- stack.go:18-24.  Indexing at `count-1` panics when it is negative or beyond the slice. -/
def pop (s : Stack α) : Res (α × Stack α) :=
  if s.count = 0 then .error .panic
  else match s.items[s.count - 1]? with
    | none => .error .panic
    | some item => .ok (item, ⟨s.items.take (s.count - 1), s.count - 1⟩)

/-- stack.go:27-29 -/
def isEmpty (s : Stack α) : Bool := s.count = 0

/-- stack.go:32-35 -/
def clear (_ : Stack α) : Stack α := ⟨[], 0⟩

end Stack

/-! ### structure.Set (structure/set.go) -/

/-- structure.Set, structure/set.go:10-12: a map to booleans. -/
abbrev GoSet (α : Type) := GoMap α Bool

namespace GoSet
variable {α : Type} [DecidableEq α]

/-- structure/set.go:23-27 -/
def add (s : GoSet α) (values : List α) : GoSet α := values.foldl (fun m v => GoMap.set m v true) s

/-- structure/set.go:15-20 -/
def new (values : List α) : GoSet α := add [] values

/-- structure/set.go:30-40, in the map's iteration order -/
def values (s : GoSet α) : List α := (s.filter (fun p => p.2)).map (·.1)

end GoSet

/-! ### structure/map.go -/

/-- structure.TryOverMapValues, map.go:4-17: stops at the first error met in iteration order. -/
def tryOverMapValues {κ τ υ : Type} [DecidableEq κ] (mapper : τ → Res υ) : GoMap κ τ → Res (GoMap κ υ)
  | input => go input []
where
  go : GoMap κ τ → GoMap κ υ → Res (GoMap κ υ)
  | [], result => .ok result
  | (key, v) :: rest, result =>
    match mapper v with
    | .error f => .error f
    | .ok nv => go rest (GoMap.set result key nv)

/-- structure.OverMap, map.go:20-29 -/
def overMap {κ l τ υ : Type} [DecidableEq l] (mapper : κ → τ → l × υ) (input : GoMap κ τ) : GoMap l υ :=
  input.foldl (fun result kv => let nkv := mapper kv.1 kv.2; GoMap.set result nkv.1 nkv.2) []

/-! ### testlang.Walk -/

/-- A pointer into a tree: the child indices from the root.  Two node pointers are equal in Go exactly when
these are. (stm/builder.go:141.) -/
abbrev Path := List Nat

namespace Node

/-- Number of nodes; bounds the iterations of the loops below. (Of a tree of testlang/node.go:4-11.) -/
def size : Node → Nat
  | ⟨_, _, _, _, next⟩ => 1 + sizes next
where
  sizes : List Node → Nat
  | [] => 0
  | n :: ns => size n + sizes ns

/-- `&node.Next[0], …, &node.Next[len-1]` as (pointer, pointee) pairs. (E.g. stm/builder.go:141.) -/
def children (p : Path) (n : Node) : List (Path × Node) :=
  n.next.mapIdx (fun i c => (p ++ [i], c))

/-- The loop of testlang.Walk, walk.go:11-22, with its stack of node pointers.  `f s p n` is the visiting
function with its captured variables `s`; it may record writes to node fields in `s`.  Simplification: it does
not change the `Next` fields (no caller does).  `fuel` bounds the number of iterations; `none` means it was
used up. -/
def walkLoop {σ : Type} (f : σ → Path → Node → Res σ) : Nat → Stack (Path × Node) → σ → Option (Res σ)
  | 0, _, _ => none
  | fuel + 1, stack, s =>
    if stack.isEmpty then some (.ok s)
    else match stack.pop with
      | .error e => some (.error e)
      | .ok ((p, n), stack) =>
        match f s p n with
        | .error e => some (.error e)
        | .ok s => walkLoop f fuel ((n.children p).reverse.foldl Stack.push stack) s

/-- testlang.Walk, walk.go:6-25.  One iteration per node plus one for the exit test is enough fuel (proved). -/
def walk {σ : Type} (f : σ → Path → Node → Res σ) (root : Node) (s : σ) : Option (Res σ) :=
  walkLoop f (root.size + 1) (Stack.empty.push ([], root)) s

/-- The tree after writing the `Tests` fields recorded for the given pointers. (testlang/node.go:6, 53-57.) -/
def writeTests (writes : Path → Option (List Str)) (p : Path) : Node → Node
  | ⟨id, tests, outcome, event, next⟩ =>
    ⟨id, (writes p).getD tests, outcome, event, writeAll writes p 0 next⟩
where
  writeAll (writes : Path → Option (List Str)) (p : Path) : Nat → List Node → List Node
  | _, [] => []
  | i, n :: ns => writeTests writes (p ++ [i]) n :: writeAll writes p (i + 1) ns

/-- testlang.MarkAll, walk.go:28-34: the captured state is the set of writes `n.Tests = tests` done so far. -/
def markAll (root : Node) (tests : List Str) : Option (Res Node) :=
  (walk (fun (w : Path → Option (List Str)) p _ => .ok (fun q => if q = p then some tests else w q))
    root (fun _ => none)).map fun r => r.map fun w => writeTests w [] root

end Node

/-! ### internal/validate -/

namespace Validate

/-- validate.OneNext, validate.go:50-56 -/
def oneNext (n : Node) : Res Node :=
  match n.next with
  | [c] => .ok c
  | cs => throwErr (.needOneNode cs.length)

/-- validate.Root, validate/node.go:10-24 -/
def root (n : Node) : Res Unit :=
  if n.event.isSome then throwErr .rootHasEvent
  else if n.outcome ≠ .unset then throwErr .rootHasOutcome
  else if n.tests.length = 0 then throwErr .noTests
  else .ok ()

/-- validate.failNode, validate/node.go:51-61 -/
def failNode (n : Node) : Res Unit :=
  if n.event.isSome then throwErr .failHasEvent
  else if n.next.length ≠ 0 then throwErr .failHasNextNodes
  else .ok ()

/-- validate.passNode, validate/node.go:64-70 -/
def passNode (n : Node) : Res Unit :=
  match oneNext n with
  | .error e => .error e
  | .ok _ => .ok ()

/-- validate.nonFailNode, validate/node.go:73-83 -/
def nonFailNode (n : Node) : Res Unit :=
  if n.event.isNone then throwErr .noEvent
  else if n.next.length = 0 then throwErr .noNextNodes
  else .ok ()

/-- validate.Node, validate/node.go:27-48 -/
def node (n : Node) : Res Unit :=
  if n.tests.length = 0 then throwErr .noTests
  else if n.outcome = .unset then throwErr .noOutcome
  else if n.outcome = .fail then failNode n
  else if n.outcome = .pass then
    match passNode n with
    | .error e => .error e
    | .ok () => nonFailNode n
  else if n.outcome = .inc then nonFailNode n
  else throwErr .badOutcome

/-- A validated test, validate.go:11-13. -/
structure Test where
  root : Node

/-- validate.Full, validate.go:22-44.  The argument is a possibly nil pointer; the walk then calls
`Root(nil)`, whose `node.Event` panics.  The outer `Option` is the walk's fuel (never `none`, proved). -/
def full (r : Option Node) : Option (Res Test) :=
  match r with
  | none => some (.error .panic)
  | some r =>
    match Node.walk (fun (_ : Unit) p n => if p = [] then Validate.root n else Validate.node n) r () with
    | none => none
    | some (.error e) => some (.error e)
    | some (.ok ()) => some (.ok ⟨r⟩)

/-- testlang.Suite, testlang.go:12: a map of test names to (possibly nil) node pointers. -/
abbrev Suite := GoMap Str (Option Node)

/-- validate.FullSuite, validate/suite.go:14-21.  (`getD` never takes its default, see `full`.) -/
def fullSuite (s : Suite) : Res (GoMap Str Test) :=
  tryOverMapValues (fun n => (full n).getD (.error .panic)) s

end Validate

end Rtcg
