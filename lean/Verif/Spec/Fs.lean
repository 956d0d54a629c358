import Verif.Model.Fs

/-
Specification vocabulary for the output of the generator.
-/

namespace Rtcg.Spec

open Rtcg

/-- A plain path component: not empty, without slash, and neither `.` nor `..`. -/
def Plain (c : Str) : Prop := c ≠ [] ∧ '/' ∉ c ∧ c ≠ c!"." ∧ c ≠ c!".."

instance (c : Str) : Decidable (Plain c) := inferInstanceAs (Decidable (_ ∧ _ ∧ _ ∧ _))

/-- All test names are plain path components. -/
def PlainNames (suite : StmSuite) : Prop := ∀ nt ∈ suite.tests, Plain nt.1

/-- The directory or file an operation makes. -/
def target : Op → Str
  | .mkdir p => p
  | .write p _ => p
  | .copy _ d => d

/-- The file an operation writes, if any. -/
def fileTarget : Op → Option Str
  | .mkdir _ => none
  | .write p _ => some p
  | .copy _ d => some d

/-- Where the files generated for a configuration go, below the directory of its variant, and what they hold.  The user's
conversion code, if asked for, comes besides (`conversionSource`). -/
def filesOf (suite : StmSuite) (c : CppConfig.Config) : List (List Str × Content) :=
  let ctx := c.process suite.types
  [([c!"src", c!"rtcg", c!"rtcg.cpp"], .prelude c!"rtcg.cpp"), ([c!"src", c!"rtcg", c!"rtcg.h"], .prelude c!"rtcg.h"),
   ([c!"src", c!"convert", c!"convert.h"], .convertH c.variant ctx)] ++
  suite.tests.map (fun nt =>
    ([c!"src", nt.1, c!"src", c!"main.cpp"], .mainCpp c.variant nt.1 nt.2 (TransitionContext.make nt.2) ctx)) ++
  (match c.catkin with
    | none => []
    | some pkg => suite.tests.flatMap (fun nt =>
        [([c!"src", nt.1, c!"package.xml"], .packageXml (Catkin.forTest pkg nt.1)),
         ([c!"src", nt.1, c!"CMakeLists.txt"], .cmake (Catkin.forTest pkg nt.1))])) ++
  (if c.makefile then [([c!"Makefile"], .makefile suite.tests.keys ctx)] else [])

/-- The user's conversion code below a directory, for a configuration. -/
def conversionFile (c : CppConfig.Config) : List Str := [c.variant.string, c!"src", c!"convert", c!"convert.cpp"]

/-- Does the configuration ask for conversion code? -/
def needsConversion (suite : StmSuite) (c : CppConfig.Config) : Prop :=
  ∃ ch ∈ c.channels, ch.name ∈ suite.types.keys

/-- Everything inside a directory, itself included. -/
def Inside (d a : Loc) : Prop := d <+: a

instance (d a : Loc) : Decidable (Inside d a) := inferInstanceAs (Decidable (_ <+: _))

/-- Nothing is there yet: no file and no directory strictly inside, and no file on the way. -/
def EmptyAt (fs : Fs) (d : Loc) : Prop :=
  (∀ a, a <+: d → fs.file a = none) ∧ ∀ a, d <+: a → a ≠ d → fs.file a = none ∧ fs.isDir a = false

end Rtcg.Spec
