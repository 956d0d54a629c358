import Verif.Spec.Json
import Verif.Spec.CsvGrammar

/-
What the JSON of a test suite and of a suite of machines says: which fields there are and what they hold.
-/

namespace Rtcg.Spec.JsonForm

open Rtcg Rtcg.Spec

/-! ### fields -/

/-- A character of a key stands for a letter of a field name: the same letter in either case, or the long s or the Kelvin sign, which are
an s and a k to Unicode. -/
def StandsFor (c l : Char) : Prop := c.toLower = l.toLower ∨ (c = 'ſ' ∧ l.toLower = 's') ∨ (c = '\u212a' ∧ l.toLower = 'k')

/-- The key is the name of the field. -/
def Named (name key : Str) : Prop := List.Forall₂ StandsFor key name

/-- What the last entry with such a key holds. -/
def Last (P : Str → Prop) (fs : List (Str × Json)) (j : Json) : Prop :=
  ∃ pre key post, fs = pre ++ (key, j) :: post ∧ P key ∧ ∀ f ∈ post, ¬ P f.1

/-- The field is given at most once. -/
def Once (fs : List (Str × Json)) (name : Str) : Prop := fs.Pairwise (fun f g => ¬ (Named name f.1 ∧ Named name g.1))

/-- `null` stands for the default. -/
def OrNull {α : Type} (Says : Json → α → Prop) (dflt : α) (j : Json) (x : α) : Prop := (j = .null ∧ x = dflt) ∨ Says j x

/-- The field has the value: the one given, or the default if it is not given. -/
def Field {α : Type} (name : Str) (Says : Json → α → Prop) (dflt : α) (fs : List (Str × Json)) (x : α) : Prop :=
  ((∀ f ∈ fs, ¬ Named name f.1) ∧ x = dflt) ∨ ∃ j, Last (Named name) fs j ∧ OrNull Says dflt j x

/-! ### values -/

/-- A string. -/
def SaysStr (j : Json) (s : Str) : Prop := j = .str s

/-- An array, element by element. -/
def SaysList {α : Type} (Says : Json → α → Prop) (j : Json) (xs : List α) : Prop := ∃ js, j = .arr js ∧ List.Forall₂ Says js xs

/-- An object as a map from its keys: for a key given more than once the last value counts. -/
def SaysMap {α : Type} (Says : Json → α → Prop) (j : Json) (m : GoMap Str α) : Prop :=
  ∃ fs, j = .obj fs ∧ GoMap.WF m ∧ (∀ f ∈ fs, ∃ x, Says f.2 x) ∧
    (∀ f ∈ fs, ∃ x, (f.1, x) ∈ m) ∧ ∀ k x, (k, x) ∈ m → ∃ j, Last (· = k) fs j ∧ Says j x

/-- The name of an outcome, in any case. -/
def OutcomeText (s : Str) (o : Outcome) : Prop := ∃ name, (o, name) ∈ outcomeMembers ∧ SameIgnoringCase s name

/-- An outcome. -/
def SaysOutcome (j : Json) (o : Outcome) : Prop := ∃ s, j = .str s ∧ OutcomeText s o

/-- An event. -/
def SaysEvent (j : Json) (e : Option Event) : Prop := ∃ s x, j = .str s ∧ e = some x ∧ EventText s x

/-- A channel; what follows a second dot is left out. -/
def SaysChannel (j : Json) (c : Channel) : Prop := ∃ s rest, j = .str s ∧ ReadsAsChannel s c rest

/-- A value. -/
def SaysValue (j : Json) (v : Value) : Prop := ∃ s, j = .str s ∧ ReadsAsValue s v

/-- A type. -/
def SaysType (j : Json) (t : Option RsType) : Prop := ∃ s x name, j = .str s ∧ t = some x ∧ (x, name) ∈ typeTexts ∧ SameIgnoringCase s name

/-- A map of types; a type may be `null`. -/
def SaysTypes : Json → TypeMap → Prop := SaysMap (OrNull SaysType none)

/-- A list of texts. -/
def SaysStrs : Json → List Str → Prop := SaysList (OrNull SaysStr [])

/-! ### test suites -/

mutual
/-- A node of a test. -/
inductive SaysNode : Json → Node → Prop
  | null : SaysNode .null ⟨[], [], .unset, none, []⟩
  | obj {fs : List (Str × Json)} {id : Str} {tests : List Str} {outcome : Outcome} {event : Option Event} {next : List Node} {js : List Json}
      (hid : Field c!"id" SaysStr [] fs id) (htests : Field c!"tests" SaysStrs [] fs tests)
      (houtcome : Field c!"outcome" SaysOutcome .unset fs outcome) (hevent : Field c!"event" SaysEvent none fs event)
      (hjs : Field c!"next" (fun j js => j = .arr js) [] fs js) (hnext : SaysNodes js next) :
      SaysNode (.obj fs) ⟨id, tests, outcome, event, next⟩
/-- The nodes after a node. -/
inductive SaysNodes : List Json → List Node → Prop
  | nil : SaysNodes [] []
  | cons {j : Json} {js : List Json} {n : Node} {ns : List Node} (h : SaysNode j n) (hs : SaysNodes js ns) : SaysNodes (j :: js) (n :: ns)
end

/-- A test; `null` is no test. -/
def SaysTest (j : Json) (t : Option Node) : Prop := (j = .null ∧ t = none) ∨ (j ≠ .null ∧ ∃ n, t = some n ∧ SaysNode j n)

/-- A test suite. -/
def SaysSuite (j : Json) (s : Validate.Suite) : Prop := (j = .null ∧ s = []) ∨ SaysMap SaysTest j s

/-- No field of the node or of any below it is given twice. -/
inductive NodeOnce : Json → Prop
  | other {j : Json} (h : ∀ fs, j ≠ .obj fs) : NodeOnce j
  | obj {fs : List (Str × Json)} (h : ∀ name ∈ [c!"id", c!"tests", c!"outcome", c!"event", c!"next"], Once fs name)
      (hs : ∀ key js, (key, .arr js) ∈ fs → Named c!"next" key → ∀ j ∈ js, NodeOnce j) : NodeOnce (.obj fs)

/-- No field of any node is given twice. -/
def SuiteOnce (j : Json) : Prop := ∀ fs, j = .obj fs → ∀ f ∈ fs, NodeOnce f.2

/-! ### suites of machines -/

/-- An object of which the property holds, or `null` for the default. -/
def SaysObj {α : Type} (Says : List (Str × Json) → α → Prop) (dflt : α) (j : Json) (x : α) : Prop :=
  (j = .null ∧ x = dflt) ∨ ∃ fs, j = .obj fs ∧ Says fs x

/-- A transition. -/
def SaysTransition : Json → Transition → Prop :=
  SaysObj (fun fs t => Field c!"value" SaysValue .none fs t.value ∧ Field c!"next" SaysStr [] fs t.next) ⟨.none, []⟩

/-- The transitions on a channel. -/
def SaysTSet : Json → TSet → Prop :=
  SaysObj (fun fs t => Field c!"channel" SaysChannel ⟨[], .in_⟩ fs t.channel ∧
    Field c!"transitions" (SaysList SaysTransition) [] fs t.transitions) ⟨⟨[], .in_⟩, []⟩

/-- The verdict of a state: an outcome for each test. -/
def SaysVerdict (j : Json) (v : Verdict) : Prop :=
  ∃ m, SaysMap (OrNull SaysStr []) j m ∧ GoMap.WF v ∧ v.map (·.1) = m.map (·.1) ∧
    ∀ test o, (test, o) ∈ v → ∃ s, (test, s) ∈ m ∧ OutcomeText s o

/-- A state. -/
def SaysState : Json → State → Prop :=
  SaysObj (fun fs s => Field c!"id" SaysStr [] fs s.id ∧ Field c!"transitionSets" (SaysList SaysTSet) [] fs s.transitionSets ∧
    Field c!"verdicts" SaysVerdict [] fs s.verdict) ⟨[], [], []⟩

/-- A set of tests, given as a list. -/
def SaysSet (j : Json) (s : GoSet Str) : Prop := ∃ xs, SaysStrs j xs ∧ GoMap.WF s ∧ ∀ x, (x, true) ∈ s ↔ x ∈ xs

/-- A machine. -/
def SaysStm : Json → Stm → Prop :=
  SaysObj (fun fs m => Field c!"states" (SaysList SaysState) [] fs m.states ∧ Field c!"types" SaysTypes [] fs m.types ∧
    Field c!"tests" SaysSet [] fs m.tests) ⟨[], [], []⟩

/-- A suite of machines. -/
def SaysStmSuite : Json → StmSuite → Prop :=
  SaysObj (fun fs s => Field c!"types" SaysTypes [] fs s.types ∧ Field c!"tests" (SaysMap SaysStm) [] fs s.tests) ⟨[], []⟩

/-- No field of the object is given twice, and what the field of that name holds is as said. -/
def ObjOnce (names : List Str) (inner : Str → Json → Prop) (j : Json) : Prop :=
  ∀ fs, j = .obj fs → (∀ name ∈ names, Once fs name) ∧ ∀ f ∈ fs, inner f.1 f.2

/-- All elements of the array are as said. -/
def Elems (P : Json → Prop) (j : Json) : Prop := ∀ js, j = .arr js → ∀ x ∈ js, P x

/-- All entries of the object are as said. -/
def Entries (P : Json → Prop) (j : Json) : Prop := ∀ fs, j = .obj fs → ∀ f ∈ fs, P f.2

/-- No field of the transition is given twice. -/
def TransitionOnce : Json → Prop := ObjOnce [c!"value", c!"next"] (fun _ _ => True)

/-- No field of the set of transitions, or in it, is given twice. -/
def TSetOnce : Json → Prop := ObjOnce [c!"channel", c!"transitions"] (fun key j => Named c!"transitions" key → Elems TransitionOnce j)

/-- No field of the state, or in it, is given twice. -/
def StateOnce : Json → Prop := ObjOnce [c!"id", c!"transitionSets", c!"verdicts"] (fun key j => Named c!"transitionSets" key → Elems TSetOnce j)

/-- No field of the machine, or in it, is given twice. -/
def StmOnce : Json → Prop := ObjOnce [c!"states", c!"types", c!"tests"] (fun key j => Named c!"states" key → Elems StateOnce j)

/-- No field of the suite, or in it, is given twice. -/
def StmSuiteOnce : Json → Prop := ObjOnce [c!"types", c!"tests"] (fun key j => Named c!"tests" key → Entries StmOnce j)

/-! ### nothing where something is needed -/

/-- The test is `null`. -/
def NullTest (j : Json) (test : Str) : Prop := ∃ fs, j = .obj fs ∧ Last (· = test) fs .null

/-- The machine of the test, or one of its states, is `null`. -/
def NullMachine (j : Json) (test : Str) : Prop :=
  ∃ fs ts m, j = .obj fs ∧ Last (Named c!"tests") fs (.obj ts) ∧ Last (· = test) ts m ∧
    (m = .null ∨ ∃ gs js, m = .obj gs ∧ Last (Named c!"states") gs (.arr js) ∧ .null ∈ js)

end Rtcg.Spec.JsonForm
