import Verif.Spec.CppTrace
import Verif.Spec.HarnessTree

/-
When the test of a tree can be a C++ program, and what it is then driven by, in terms of the tree.
-/

namespace Rtcg

namespace Spec

namespace Cpp

open Templates Rtcg.Cpp Harness

/-- A test that some node below the root is tagged with -/
def TestOf (root : Node) (t : Str) : Prop := ∃ p n, p ≠ [] ∧ nodeAt root p = some n ∧ t ∈ n.tests

/-- The names in a tree can be names in C++, and do not clash -/
structure TreeNames (U : Unicode) (v : Variant) (root : Node) : Prop where
  /-- channels are called by words, and there are values that can be put in quotes -/
  words : ∀ e ∈ treeEvents root, WordName e.channel.name ∧ GoodValue e.value
  /-- tests are called by names that are not keywords or other members of class Verdict -/
  tests : ∀ t, TestOf root t → Ident t ∧ t ≠ c!"Verdict" ∧ t ≠ c!"dump" ∧ ¬ TestOf root (t ++ c!"_")
  /-- no output has the callback of something else -/
  outputs : ∀ e ∈ treeEvents root, e.channel.kind ≠ kIn → e.channel.name ∉ [c!"timeout", c!"initialDelay", c!"inputAccepted"]
  /-- different outputs have different names -/
  distinct : ∀ e ∈ treeEvents root, ∀ e' ∈ treeEvents root, e.channel.kind ≠ kIn → e'.channel.kind ≠ kIn → e.channel.name = e'.channel.name →
    e.channel = e'.channel
  /-- in ROS, different channels have different topics, and no output has the topic for accepted inputs -/
  topics : v = .ros → ∀ e ∈ treeEvents root, (∀ e' ∈ treeEvents root, (e.channel.kind = kIn ↔ e'.channel.kind = kIn) →
    topicName U e.channel = topicName U e'.channel → e.channel = e'.channel) ∧ (e.channel.kind ≠ kIn → topicName U e.channel ≠ c!"input_accepted")
  /-- no conversion is hidden by a callback or a publisher -/
  convert : ∀ e ∈ treeEvents root, ∀ e' ∈ treeEvents root, ∀ g ∈ [convertTo U e.channel.name, convertFrom U e.channel.name],
    g ≠ callbackName e'.channel.name ∧ (v = .ros → g ≠ publisherName U e'.channel ++ c!"_")

/-- The libraries declare what the program of a tree needs: streams, the conversions of its channels, and (for ROS) the parts of ROS -/
structure TreeLib (L : Lib) (U : Unicode) (v : Variant) (root : Node) : Prop where
  std : ∀ x ∈ [c!"cerr", c!"cout", c!"endl"], L.known [c!"std", x] = true
  convert : ∀ e ∈ treeEvents root, L.takes [convertTo U e.channel.name] 1 = true ∧ L.takes [convertFrom U e.channel.name] 1 = true
  ros : v = .ros → (∀ x ∈ [c!"NodeHandle", c!"Publisher"], L.known [c!"ros", x] = true) ∧ (∀ f ∈ rosFunctions, L.takes f.1 f.2 = true) ∧
    ∀ e ∈ treeEvents root, L.takes [c!".advertise", channelValueType U e.channel.name] 3 = true ∧
      ∀ args, ∃ h, L.val [c!".advertise", channelValueType U e.channel.name] args = .lib h

/-- A callback that ROS can call in the test of a tree: for an output, one of the tree, with a value like those in the tree -/
def TreeCallback (root : Node) : Callback → Prop
  | .timeout => True
  | .start => RootInput root
  | .accepted => ∃ e ∈ treeEvents root, e.channel.kind = kIn
  | .output c x => (∃ e ∈ treeEvents root, e.channel = c) ∧ c.kind ≠ kIn ∧ x ≠ .none ∧ ∀ e ∈ treeEvents root, e.channel = c → SameKind e.value x

/-- After some callbacks the test of a tree has got to a node and goes on: what it saw leads there, and no test has failed on the way -/
def GotTo (root : Node) (done : List Callback) (p : Path) (n : Node) : Prop :=
  nodeAt root p = some n ∧ n.outcome ≠ oFail ∧ done.filter (sees (treeEvents root)) = seenTo root p ∧
    ∀ q n', q <+: p → nodeAt root q = some n' → ¬ Fails n'

/-- After some callbacks, the test of a tree goes on -/
def TreeOngoing (root : Node) (done : List Callback) : Prop := ∃ p n, GotTo root done p n

/-- It waits for its start -/
def TreeNotStarted (root : Node) (done : List Callback) : Prop :=
  RootInput root ∧ .start ∉ done ∧ done.filter (sees (treeEvents root)) = []

/-- It waits for an input to be accepted: it has started, and goes on with an input -/
def TreeAwaitsInput (root : Node) (done : List Callback) : Prop :=
  ¬ TreeNotStarted root done ∧ ∃ p n, GotTo root done p n ∧ RootInput n

open Classical in
/-- What a typed word means to the test of a tree, after some callbacks: a callback, or nothing -/
noncomputable def treeMeaning (root : Node) (done : List Callback) (w : Str × Value) : Option Callback :=
  if w.1 = c!"timeout" then some .timeout
  else if w.1 = c!"ready" ∧ TreeNotStarted root done then some .start
  else if w.1 = c!"accept" ∧ TreeAwaitsInput root done then some .accepted
  else ((treeEvents root).find? (fun e => e.channel.kind ≠ kIn ∧ e.channel.name = w.1)).map (fun e => .output e.channel w.2)

/-- What typed words mean, one after the other -/
noncomputable def treeMeanings (root : Node) : List Callback → List (Str × Value) → List Callback
  | done, [] => done
  | done, w :: ws => treeMeanings root (done ++ (treeMeaning root done w).toList) ws

open Classical in
/-- What is typed until the test ends: the words, and after the name of an output a value -/
noncomputable def treeTyping (root : Node) : List Callback → List (Str × Value) → List Str
  | _, [] => []
  | done, w :: ws =>
    if TreeOngoing root done then
      (match treeMeaning root done w with
        | some (.output _ x) => [w.1, x.stringValue]
        | _ => [w.1]) ++ treeTyping root (done ++ (treeMeaning root done w).toList) ws
    else []

/-- The last things that a test program says: its status, and the outcomes of its tests -/
def outcomesSaid (U : Unicode) (v : Variant) (name : Str) (s : Status) (outcomes : List (Str × Outcome)) : List Effect :=
  [logEff U v c!"info" [.str (c!"Test " ++ name ++ c!" finished: "), statusVal s, .str c!"."], logEff U v c!"info" [.str c!"Final outcomes: "]] ++
  outcomes.map (fun x => logEff U v c!"info" [.str (c!"  " ++ x.1 ++ c!" = "), outcomeVal x.2])

end Cpp

end Spec

end Rtcg
