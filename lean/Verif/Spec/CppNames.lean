import Verif.Spec.CppSyntax
import Verif.Model.TemplateData

/-
Names that generated programs can be made of: what a machine, its channels, values and tests must be called for main.cpp to be C++.
-/

namespace Rtcg

namespace Spec

namespace Cpp

open Templates Rtcg.Cpp

/-- A character that stands for itself in a string literal -/
def plainChar (c : Char) : Bool := !(c = '"' || c = '\\' || c = '\n')

/-- Text that can be put in a string literal as it is -/
def Plain (s : Str) : Prop := s.all plainChar = true

/-- A character that does not end a comment or directive and does not continue it on the next line -/
def lineChar (c : Char) : Bool := !(c = '\\' || c = '\n')

/-- Text that can be put in a comment or directive as it is -/
def OneLine (s : Str) : Prop := s.all lineChar = true

def Ident (w : Str) : Prop := isIdent w = true

/-- The ID of a state: the names made from it are names, and it can be said -/
def GoodId (U : Unicode) (id : Str) : Prop := Ident (enumField U id) ∧ Ident (stateEntry U id) ∧ Plain id

/-- A channel, likewise -/
def GoodChannel (U : Unicode) (c : Channel) : Prop :=
  Ident (callbackName c.name) ∧ Ident (channelMsgType U c.name) ∧ Ident (channelValueType U c.name) ∧ Ident (convertTo U c.name) ∧
    Ident (convertFrom U c.name) ∧ Ident (publisherName U c) ∧ Ident (subscriberName U c) ∧ Plain (topicName U c) ∧ Plain c.name ∧
    Plain c.string

/-- A value: there is one, and it can be said -/
def GoodValue (x : Value) : Prop := x ≠ .none ∧ Plain x.stringValue

def GoodTransition (U : Unicode) (t : Transition) : Prop := GoodValue t.value ∧ GoodId U t.next

/-- A verdict: the tests are names, the outcomes are outcomes -/
def GoodVerdict (v : Verdict) : Prop := ∀ e ∈ v, Ident e.1 ∧ e.2.val.toNat < 4

def GoodState (U : Unicode) (s : State) : Prop :=
  GoodId U s.id ∧ GoodVerdict s.verdict ∧
    ∀ ts ∈ s.transitionSets, GoodChannel U ts.channel ∧ ∀ t ∈ ts.transitions, GoodTransition U t

/-- Aggregated transitions: there are some for every state -/
def GoodAggregate (U : Unicode) (a : AggregateSet) : Prop :=
  GoodChannel U a.channel ∧ ∀ e ∈ a.states, GoodId U e.1 ∧ e.2 ≠ [] ∧ ∀ t ∈ e.2, GoodTransition U t

/-- Everything that goes into main.cpp -/
structure GoodMain (U : Unicode) (date name : Str) (m : Stm) (tc : TransitionContext) (ctx : CppConfig.Context) (first : Str) : Prop where
  date : OneLine date
  name : Plain name
  includes : ∀ i ∈ ctx.includes, OneLine i.src
  tests : ∀ t ∈ GoSet.values m.tests, Ident t
  states : ∀ s ∈ m.states, GoodState U s
  first : GoodId U first
  inSets : ∀ a ∈ tc.in_, GoodAggregate U a
  outSets : ∀ a ∈ tc.out, GoodAggregate U a
  types : ∀ a ∈ tc.out, ∃ t ty, GoMap.get? ctx.channelTypes a.channel.name = some t ∧ t.base = some ty ∧ Plain (Tmpl.typeString ty)
  merged : ∀ e ∈ tc.inMerged, GoodId U e.1 ∧ e.2 ≠ [] ∧ ∀ t ∈ e.2, GoodTransition U t

end Cpp

end Spec

end Rtcg
