import Verif.Model.Programs

/-
The command line of rtcg-gen, as its usage text describes it (`(flags) CONFIG-FILE [STM-FILE]`, with the flags of package flag).
-/

namespace Rtcg.Spec

open Rtcg

/-- One or two dashes. -/
def Dashes (d : Str) : Prop := d = c!"-" ∨ d = c!"--"

/-- The texts for true and for false. -/
def BoolText (s : Str) (b : Bool) : Prop :=
  s ∈ (if b then [c!"1", c!"t", c!"T", c!"TRUE", c!"true", c!"True"] else [c!"0", c!"f", c!"F", c!"FALSE", c!"false", c!"False"])

/-- The arguments that make up one use of a flag, and what it changes: from whether to clean and the output, to the same. -/
inductive FlagUse : List Str → Bool × Str → Bool × Str → Prop
  | clean {d : Str} {c : Bool} {o : Str} (hd : Dashes d) : FlagUse [d ++ c!"clean"] (c, o) (true, o)
  | cleanIs {d v : Str} {c b : Bool} {o : Str} (hd : Dashes d) (hv : BoolText v b) : FlagUse [d ++ c!"clean=" ++ v] (c, o) (b, o)
  | output {d v : Str} {c : Bool} {o : Str} (hd : Dashes d) : FlagUse [d ++ c!"output", v] (c, o) (c, v)
  | outputIs {d v : Str} {c : Bool} {o : Str} (hd : Dashes d) : FlagUse [d ++ c!"output=" ++ v] (c, o) (c, v)

/-- The end of the flags: the first argument that is `-` or does not start with a dash, or `--`, which is left out; and the arguments
after that. -/
inductive FlagsEnd : List Str → List Str → Prop
  | none : FlagsEnd [] []
  | dash {args : List Str} : FlagsEnd (c!"-" :: args) (c!"-" :: args)
  | word {a : Str} {args : List Str} (h : a.head? ≠ some '-') : FlagsEnd (a :: args) (a :: args)
  | stop {args : List Str} : FlagsEnd (c!"--" :: args) args

/-- A command line with the flags in force before it, those in force after it, and the other arguments. -/
inductive CommandLine : List Str → Bool × Str → Bool × Str → List Str → Prop
  | done {args rest : List Str} {x : Bool × Str} (h : FlagsEnd args rest) : CommandLine args x x rest
  | flag {u args rest : List Str} {x y z : Bool × Str} (h : FlagUse u x y) (h' : CommandLine args y z rest) : CommandLine (u ++ args) x z rest

end Rtcg.Spec
