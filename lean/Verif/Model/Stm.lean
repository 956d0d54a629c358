import Verif.Model.Trace

/-
State machines (internal/stm): transitions, verdicts, states, the builder; and the template context computed from a
machine (internal/gen/gencommon/context.go).
-/

namespace Rtcg

/-- transition.Transition, stm/transition/transition.go:13-17 -/
structure Transition where
  value : Value
  next : Str
  deriving DecidableEq, Repr

/-- transition.Set with its embedded BaseSet, stm/transition/set.go:12-14, 22-25 -/
structure TSet where
  channel : Channel
  transitions : List Transition
  deriving DecidableEq, Repr

/-- transition.AggregateSet with its embedded BaseSet, stm/transition/set.go:12-14, 59-66 -/
structure AggregateSet where
  channel : Channel
  states : GoMap Str (List Transition)
  deriving DecidableEq, Repr

/-- transition.AddToSets, stm/transition/set.go:36-47: the loop over the sets, then the append.  Simplification: the
update in place is a new list (the caller always stores the result back, state.go:56). -/
def addToSets : List TSet → Channel → Transition → List TSet
  | [], c, t => [⟨c, [t]⟩]
  | s :: sets, c, t =>
    if s.channel.equals c then { s with transitions := s.transitions ++ [t] } :: sets
    else s :: addToSets sets c t

/-- transition.AddToAggregateSets, stm/transition/set.go:77-88 -/
def addToAggregateSets : List AggregateSet → Str → TSet → List AggregateSet
  | [], sid, set => [⟨set.channel, [(sid, set.transitions)]⟩]
  | a :: aggs, sid, set =>
    if a.channel.equals set.channel then
      { a with states := GoMap.set a.states sid ((GoMap.get? a.states sid).getD [] ++ set.transitions) } :: aggs
    else a :: addToAggregateSets aggs sid set

/-! ### verdicts -/

/-- verdict.Verdict, stm/verdict/verdict.go:17 -/
abbrev Verdict := GoMap Str Outcome

namespace Verdict

/-- (*Verdict).Tests, verdict.go:20-30.  `sort.Strings` compares bytes; on valid UTF-8 that is the order by code points
used here. -/
def tests (v : Verdict) : List Str := List.mergeSort v.keys (fun a b => decide (a ≤ b))

/-- (*Verdict).Is, verdict.go:63-71 -/
def is : Verdict → Outcome → Bool
  | [], _ => false
  | (_, s) :: v, status => if s = status then true else is v status

/-- (*Verdict).SetOf, verdict.go:74-84 -/
def setOf (v : Verdict) (status : Outcome) : GoSet Str :=
  v.foldl (fun tests ks => if ks.2 = status then GoSet.add tests [ks.1] else tests) (GoSet.new [])

/-- (*Verdict).Add, verdict.go:87-91 -/
def add (v : Verdict) (outcome : Outcome) (tests : List Str) : Verdict :=
  tests.foldl (fun v t => GoMap.set v t outcome) v

/-- verdict.go:33-35 -/
def isInc (v : Verdict) : Bool := v.is .inc
/-- verdict.go:38-40 -/
def inc (v : Verdict) : GoSet Str := v.setOf .inc
/-- verdict.go:43-45 -/
def isPass (v : Verdict) : Bool := v.is .pass
/-- verdict.go:48-50 -/
def pass (v : Verdict) : GoSet Str := v.setOf .pass
/-- verdict.go:53-55 -/
def isFail (v : Verdict) : Bool := v.is .fail
/-- verdict.go:58-60 -/
def fail (v : Verdict) : GoSet Str := v.setOf .fail

end Verdict

/-! ### states and machines -/

/-- stm.State, stm/state.go:13-25.  Simplification: the verdict pointer is not nil (NewState sets it; a JSON state without
verdicts has no verdict entries). -/
structure State where
  id : Str
  transitionSets : List TSet
  verdict : Verdict
  deriving DecidableEq, Repr

namespace State

/-- stm.NewState, state.go:28-34 -/
def new (id : Str) : State := ⟨id, [], []⟩

/-- addVerdictsFromNode, state.go:64-66 -/
def addVerdictsFromNode (s : State) (outcome : Outcome) (tests : List Str) : State :=
  { s with verdict := s.verdict.add outcome tests }

/-- addTransitionToNode, state.go:45-57; `id` is the node's ID field at the time of the call.  Panics on an empty ID and on
a nil event. -/
def addTransitionToNode (s : State) (id : Str) (node : Node) : Res State :=
  if node.outcome = .fail then .ok s
  else if id = [] then .error .panic
  else match node.event with
    | none => .error .panic
    | some e => .ok { s with transitionSets := addToSets s.transitionSets e.channel ⟨e.value, id⟩ }

/-- AddOutgoingNode, state.go:37-40 -/
def addOutgoingNode (s : State) (id : Str) (node : Node) : Res State :=
  (s.addVerdictsFromNode node.outcome node.tests).addTransitionToNode id node

/-- HasIn, state.go:86-94 -/
def hasIn (s : State) : Bool := s.transitionSets.any (fun t => t.channel.isIn)

/-- In, state.go:97-108: the first input set with exactly one transition -/
def in_ (s : State) : Option (Channel × Transition) :=
  go s.transitionSets
where
  go : List TSet → Option (Channel × Transition)
  | [] => none
  | t :: ts =>
    if t.channel.isIn && t.transitions.length = 1 then
      match t.transitions with
      | [] => go ts   -- not reached
      | tr :: _ => some (t.channel, tr)
    else go ts

end State

/-- stm.TypeMap, stm/stm.go:36: pointers, so possibly nil -/
abbrev TypeMap := GoMap Str (Option RsType)

namespace TypeMap
/-- `m[k]`, nil when absent. (E.g. stm/builder.go:43.) -/
def at_ (m : TypeMap) (k : Str) : Option RsType := (GoMap.get? m k).getD none
end TypeMap

/-- stm.Stm, stm/stm.go:23-34 -/
structure Stm where
  states : List State
  types : TypeMap
  tests : GoSet Str
  deriving DecidableEq, Repr

namespace Stm

/-- The machine a build starts from, builder.go:74 -/
def fresh : Stm := ⟨[], [], GoSet.new []⟩

/-- InitialState, stm.go:39-42; panics when there is no state -/
def initialState (m : Stm) : Res Str :=
  match m.states with
  | [] => .error .panic
  | s :: _ => .ok s.id

/-- TransitionSets, stm.go:45-55 -/
def aggregates (m : Stm) : List AggregateSet :=
  m.states.foldl (fun result st => st.transitionSets.foldl (fun result ts => addToAggregateSets result st.id ts) result) []

end Stm

/-- stm.Suite, stm/suite.go:11-14 -/
structure StmSuite where
  types : TypeMap
  tests : GoMap Str Stm
  deriving DecidableEq, Repr

/-! ### the builder -/

/-- stm.Builder, builder.go:13-17, plus the memory it writes to: `ids` holds the ID fields overwritten in the tree being
built, by pointer.  Simplification: the counter is unbounded. -/
structure Builder where
  nodeNum : Nat
  stack : Stack (Path × Node)
  stm : Stm
  ids : Path → Option Str

namespace Builder

/-- The ID field of the node `n` at pointer `p`. (testlang/node.go:5.) -/
def idOf (b : Builder) (p : Path) (n : Node) : Str := (b.ids p).getD n.id

/-- Write the ID field of the node at pointer `p`. (testlang/node.go:5.) -/
def setID (b : Builder) (p : Path) (id : Str) : Builder :=
  { b with ids := fun q => if q = p then some id else b.ids q }

/-- ensureNodeID, builder.go:151-158 -/
def ensureNodeID (b : Builder) (p : Path) (n : Node) : Builder :=
  if b.idOf p n ≠ [] then b
  else
    let b := b.setID p (c!"step" ++ decNat b.nodeNum)
    { b with nodeNum := b.nodeNum + 1 }

/-- One iteration of the loop in buildState, builder.go:141-145 -/
def buildStateStep (bs : Builder × State) (np : Path × Node) : Res (Builder × State) :=
  let b := bs.1.ensureNodeID np.1 np.2
  let b := { b with stm := { b.stm with tests := GoSet.add b.stm.tests np.2.tests } }
  match bs.2.addOutgoingNode (b.idOf np.1 np.2) np.2 with
  | .error e => .error e
  | .ok s => .ok (b, s)

/-- buildState, builder.go:137-149 -/
def buildState (b : Builder) (p : Path) (n : Node) : Res (Builder × State) :=
  (n.children p).foldlM buildStateStep (b, State.new (b.idOf p n))

/-- inferEventType, builder.go:125-135 -/
def inferEventType (b : Builder) (e : Event) : Res Builder :=
  let chanName := e.channel.name
  match RsType.unify (b.stm.types.at_ chanName) (some e.value.type) with
  | .error e => .error e
  | .ok t => .ok { b with stm := { b.stm with types := GoMap.set b.stm.types chanName t } }

/-- inferNodeEventType, builder.go:117-123 -/
def inferNodeEventType (b : Builder) (n : Node) : Res Builder :=
  match n.event with
  | none => .ok b
  | some e => b.inferEventType e

/-- pushNext, builder.go:111-115 -/
def pushNext (b : Builder) (p : Path) (n : Node) : Builder :=
  { b with stack := (n.children p).foldl Stack.push b.stack }

/-- processNode, builder.go:93-109 -/
def processNode (b : Builder) (p : Path) (n : Node) : Res Builder :=
  if n.outcome = .fail then .ok b
  else match b.buildState p n with
    | .error e => .error e
    | .ok (b, sn) =>
      let b := { b with stm := { b.stm with states := b.stm.states ++ [sn] } }
      match b.inferNodeEventType n with
      | .error e => .error e
      | .ok b => .ok (b.pushNext p n)

/-- The loop of Build, builder.go:82-88.  `none`: fuel used up. -/
def buildLoop : Nat → Builder → Option (Res Builder)
  | 0, _ => none
  | fuel + 1, b =>
    if b.stack.isEmpty then some (.ok b)
    else match b.stack.pop with
      | .error e => some (.error e)
      | .ok ((p, n), stack) =>
        match processNode { b with stack := stack } p n with
        | .error e => some (.error e)
        | .ok b => buildLoop fuel b

/-- The tree after the recorded writes to ID fields. (testlang/node.go:5.) -/
def writeIds (ids : Path → Option Str) (p : Path) : Node → Node
  | ⟨id, tests, outcome, event, next⟩ =>
    ⟨(ids p).getD id, tests, outcome, event, writeAll ids p 0 next⟩
where
  writeAll (ids : Path → Option Str) (p : Path) : Nat → List Node → List Node
  | _, [] => []
  | i, n :: ns => writeIds ids (p ++ [i]) n :: writeAll ids p (i + 1) ns

/-- Build, builder.go:72-91, on a builder left in any state.  Returns the builder afterwards together with the machine and
the tree with the IDs it now has.  Simplification: on an error the partly built machine, the builder and the tree are dropped
(the only caller, BuildMany, drops the machine; the next Build overwrites the builder).  One iteration per node plus one
is enough fuel (proved). -/
def build (b : Builder) (t : Validate.Test) : Option (Res (Builder × Stm × Validate.Test)) :=
  let root := t.root
  let b : Builder := { b with nodeNum := 0, stm := Stm.fresh, ids := fun _ => none }
  let b := b.setID [] c!"initial"
  let b := { b with stack := b.stack.clear.push ([], root) }
  match buildLoop (root.size + 1) b with
  | none => none
  | some (.error e) => some (.error e)
  | some (.ok b) => some (.ok (b, b.stm, ⟨writeIds b.ids [] root⟩))

/-- The zero value, stm/builder.go:13-17. -/
def zero : Builder := ⟨0, Stack.empty, ⟨[], [], []⟩, fun _ => none⟩

/-- The body of the loop of BuildMany, builder.go:60-65.  (`getD` never takes its default.) -/
def buildManyStep (acc : Builder × GoMap Str Stm) (nt : Str × Validate.Test) : Res (Builder × GoMap Str Stm) :=
  match (acc.1.build nt.2).getD (.error .panic) with
  | .error e => .error e
  | .ok (b, m, _) => .ok (b, GoMap.set acc.2 nt.1 m)

/-- BuildMany, builder.go:56-69, in the iteration order of the suite. -/
def buildMany (b : Builder) (s : GoMap Str Validate.Test) : Res (Builder × GoMap Str Stm) :=
  s.foldlM buildManyStep (b, [])

/-- The body of the inner loop of unifyTypes, builder.go:43-48 -/
def unifyStep (tmap : TypeMap) (ct : Str × Option RsType) : Res TypeMap :=
  match RsType.unify ct.2 (tmap.at_ ct.1) with
  | .error e => .error e
  | .ok u => .ok (GoMap.set tmap ct.1 u)

/-- unifyTypes, builder.go:38-53, in the iteration orders of the maps -/
def unifyTypes (tests : GoMap Str Stm) : Res TypeMap :=
  tests.foldlM (fun (tmap : TypeMap) nt => nt.2.types.foldlM unifyStep tmap) []

/-- BuildSuite, builder.go:20-35 -/
def buildSuite (b : Builder) (tests : GoMap Str Validate.Test) : Res (Builder × StmSuite) :=
  match b.buildMany tests with
  | .error e => .error e
  | .ok (b, ms) =>
    match unifyTypes ms with
    | .error e => .error e
    | .ok types => .ok (b, ⟨types, ms⟩)

end Builder

/-! ### template context -/

/-- gencommon.TransitionContext, gen/gencommon/context.go:34-45 -/
structure TransitionContext where
  channels : List Channel
  all : List AggregateSet
  in_ : List AggregateSet
  out : List AggregateSet
  inMerged : GoMap Str (List Transition)
  hasIn : Bool
  firstStateHasIn : Bool
  deriving DecidableEq, Repr

namespace TransitionContext

/-- addInput, gen/gencommon/context.go:47-54 -/
def addInput (c : TransitionContext) (t : AggregateSet) : TransitionContext :=
  { c with
    hasIn := true
    in_ := c.in_ ++ [t]
    inMerged := t.states.foldl (fun m sts => GoMap.set m sts.1 ((GoMap.get? m sts.1).getD [] ++ sts.2)) c.inMerged }

/-- populateFilters, gen/gencommon/context.go:56-66 -/
def populateFilters (c : TransitionContext) : TransitionContext :=
  c.all.foldl (fun c tra =>
    let c := { c with channels := c.channels ++ [tra.channel] }
    if tra.channel.isIn then c.addInput tra else { c with out := c.out ++ [tra] }) c

/-- firstStateHasIn, gen/gencommon/context.go:87-99 -/
def firstHasIn (m : Stm) : Bool :=
  match m.states with
  | [] => false
  | s :: _ => s.transitionSets.any (fun ts => ts.channel.isIn)

/-- makeTransitions, gen/gencommon/context.go:68-85 -/
def make (m : Stm) : TransitionContext :=
  populateFilters ⟨[], m.aggregates, [], [], [], false, firstHasIn m⟩

end TransitionContext

end Rtcg
