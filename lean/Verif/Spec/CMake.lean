import Verif.Model.Base

/-
What a plain CMakeLists.txt says: a reader for the part of the CMake language that needs no escapes, comments, brackets or nested
parentheses (cmake-language(7)), and the commands that a catkin package of one program needs.  Anything else is refused.
-/

namespace Rtcg.Spec.CMake

open Rtcg

/-! ### the language -/

/-- An argument: quoted or not, and its text with the variable references still in it. -/
structure Arg where
  quoted : Bool
  text : Str
  deriving DecidableEq, Repr

/-- A command: its name and its arguments. -/
structure Command where
  name : Str
  args : List Arg
  deriving DecidableEq, Repr

/-- White space between arguments. -/
def isBlank (c : Char) : Bool := c = ' ' || c = '\t' || c = '\n'

/-- A character of the name of a command. -/
def isIdent (c : Char) : Bool := ('a' ≤ c && c ≤ 'z') || ('A' ≤ c && c ≤ 'Z') || ('0' ≤ c && c ≤ '9') || c = '_'

/-- Characters that an unquoted argument may not have, or that have a meaning of their own in it. -/
def special : List Char := c!" \t\n()\"#\\;[]'`@\r" ++ [Char.ofNat 0, Char.ofNat 11, Char.ofNat 12]

/-- Where the reader is: between commands (and whether a command may begin here), in the name of a command, between arguments, in an
unquoted argument, in a quoted argument, after a quoted argument. -/
inductive Place where
  | between (fresh : Bool)
  | name (n : Str)
  | args (n : Str) (as : List Arg)
  | unquoted (n : Str) (as : List Arg) (text : Str)
  | quoted (n : Str) (as : List Arg) (text : Str)
  | after (n : Str) (as : List Arg)
  deriving DecidableEq, Repr

/-- One character more, after the commands read so far. -/
def step (done : List Command) : Place → Char → Option (List Command × Place)
  | .between fresh, c =>
    if c = '\n' then some (done, .between true)
    else if isBlank c then some (done, .between fresh)
    else if fresh && isIdent c then some (done, .name [c])
    else none
  | .name n, c =>
    if c = '(' then some (done, .args n [])
    else if isIdent c then some (done, .name (n ++ [c]))
    else none
  | .args n as, c =>
    if isBlank c then some (done, .args n as)
    else if c = ')' then some (done ++ [⟨n, as⟩], .between false)
    else if c = '"' then some (done, .quoted n as [])
    else if special.contains c then none
    else some (done, .unquoted n as [c])
  | .unquoted n as text, c =>
    if isBlank c then some (done, .args n (as ++ [⟨false, text⟩]))
    else if c = ')' then some (done ++ [⟨n, as ++ [⟨false, text⟩]⟩], .between false)
    else if special.contains c then none
    else some (done, .unquoted n as (text ++ [c]))
  | .quoted n as text, c =>
    if c = '"' then some (done, .after n (as ++ [⟨true, text⟩]))
    else if c = '\\' || c = '@' then none
    else some (done, .quoted n as (text ++ [c]))
  | .after n as, c =>
    if isBlank c then some (done, .args n as)
    else if c = ')' then some (done ++ [⟨n, as⟩], .between false)
    else none

/-- All characters. -/
def feed (done : List Command) (p : Place) : Str → Option (List Command × Place)
  | [] => some (done, p)
  | c :: s => (step done p c).bind fun q => feed q.1 q.2 s

/-- The commands of a file; nothing if it is not plain. -/
def read (text : Str) : Option (List Command) :=
  match feed [] (.between true) text with
  | some (done, .between _) => some done
  | _ => none

/-! ### variables -/

/-- The value of every variable; a variable that is not set is empty. -/
abbrev Vars := Str → Str

/-- A text with its references `${…}`, which may be nested, replaced by values; `outer` are the references that are open. -/
def expandFrom (vars : Vars) (outer : List Str) (cur : Str) : Str → Option Str
  | [] => if outer = [] then some cur else none
  | c :: s =>
    if c = '$' then
      match s with
      | [] => none
      | d :: s => if d = '{' then expandFrom vars (cur :: outer) [] s else none
    else if c = '}' then
      match outer with
      | [] => none
      | t :: outer => expandFrom vars outer (t ++ vars cur) s
    else if c = '{' then none
    else expandFrom vars outer (cur ++ [c]) s

/-- The elements of a list: the parts between semicolons, empty ones left out. -/
def elements (s : Str) : List Str :=
  ((s.splitOnP (· == ';'))).filter (· ≠ [])

/-- What an argument stands for: a text if it is quoted, otherwise the elements of a list. -/
def Arg.values (vars : Vars) (a : Arg) : Option (List Str) :=
  (expandFrom vars [] [] a.text).map fun s => if a.quoted then [s] else elements s

/-- What all arguments stand for. -/
def values (vars : Vars) : List Arg → Option (List Str)
  | [] => some []
  | a :: as => (a.values vars).bind fun v => (values vars as).map (v ++ ·)

/-! ### the commands of a package -/

/-- What a file has said so far. -/
structure Build where
  /-- the project -/
  project : Str
  /-- the catkin components it needs -/
  needs : List Str
  /-- the catkin packages that its users need -/
  exports : List Str
  /-- compiler options -/
  options : List Str
  /-- the directories searched for headers -/
  includes : List Str
  /-- the libraries and their sources -/
  libraries : List (Str × List Str)
  /-- the programs and their sources -/
  programs : List (Str × List Str)
  /-- properties set for targets -/
  properties : List (Str × List Str)
  /-- what must be made before a target -/
  before : List (Str × List Str)
  /-- what a target is linked with -/
  links : List (Str × List Str)
  deriving DecidableEq, Repr

/-- Nothing yet. -/
def Build.none : Build := ⟨[], [], [], [], [], [], [], [], [], []⟩

/-- A character of a target name that needs no care. -/
def isNameChar (c : Char) : Bool := isIdent c || c = '.' || c = '+' || c = '-'

/-- A name that can stand for a project, package or target. -/
def isName (s : Str) : Bool := !s.isEmpty && s.all isNameChar

/-- A name of a package: no keyword of a command, all of which begin with a capital letter. -/
def isPackage (s : Str) : Bool := isName s && !(s.head?.any fun c => 'A' ≤ c && c ≤ 'Z')

/-- One command, from what its arguments stand for. -/
def act (vars : Vars) (b : Build) (name : Str) : List Str → Option (Vars × Build)
  | [] => Option.none
  | a :: as =>
    if name = c!"cmake_minimum_required" then if a = c!"VERSION" ∧ as.length = 1 then some (vars, b) else Option.none
    else if name = c!"project" then
      if isName a ∧ as = [] then some (fun x => if x = c!"PROJECT_NAME" then a else vars x, { b with project := a }) else Option.none
    else if name = c!"add_compile_options" then some (vars, { b with options := b.options ++ a :: as })
    else if name = c!"find_package" then
      if a = c!"catkin" ∧ as.take 2 = [c!"REQUIRED", c!"COMPONENTS"] ∧ (as.drop 2).all isPackage then
        some (vars, { b with needs := b.needs ++ as.drop 2 })
      else Option.none
    else if name = c!"catkin_package" then
      if a = c!"CATKIN_DEPENDS" ∧ as.all isPackage then some (vars, { b with exports := b.exports ++ as }) else Option.none
    else if name = c!"include_directories" then some (vars, { b with includes := b.includes ++ a :: as })
    else if ¬ isName a then Option.none
    else if name = c!"add_library" then some (vars, { b with libraries := b.libraries ++ [(a, as)] })
    else if name = c!"add_executable" then some (vars, { b with programs := b.programs ++ [(a, as)] })
    else if name = c!"set_target_properties" then
      if as.head? = some c!"PROPERTIES" then some (vars, { b with properties := b.properties ++ [(a, as.tail)] }) else Option.none
    else if name = c!"add_dependencies" then some (vars, { b with before := b.before ++ [(a, as)] })
    else if name = c!"target_link_libraries" then some (vars, { b with links := b.links ++ [(a, as)] })
    else Option.none

/-- One command. -/
def exec (vars : Vars) (b : Build) (c : Command) : Option (Vars × Build) := (values vars c.args).bind (act vars b c.name)

/-- All commands. -/
def execAll (vars : Vars) (b : Build) : List Command → Option Build
  | [] => some b
  | c :: cs => (exec vars b c).bind fun q => execAll q.1 q.2 cs

/-- What a file says, given the values of the variables set by others. -/
def run (vars : Vars) (text : Str) : Option Build := (read text).bind (execAll vars Build.none)

/-! ### the file for a test -/

/-- What the file of a package should say: one program, built from main.cpp, the runtime and the conversion code, with what the package
depends on. -/
def expected (vars : Vars) (name : Str) (depends : List Str) : Build where
  project := name
  needs := [c!"roscpp", c!"std_msgs"] ++ depends
  exports := [c!"roscpp", c!"std_msgs"] ++ depends
  options := [c!"-std=c++11"]
  includes := [c!"include"] ++ elements (vars c!"catkin_INCLUDE_DIRS") ++ [c!"../convert/", c!"../rtcg/"]
  libraries := [(c!"convert", [c!"../convert/convert.cpp"]), (c!"rtcg", [c!"../rtcg/rtcg.cpp"])]
  programs := [(name ++ c!"_node", [c!"src/main.cpp", c!"../convert/convert.cpp", c!"../rtcg/rtcg.cpp"])]
  properties := [(name ++ c!"_node", [c!"OUTPUT_NAME", c!"node", c!"PREFIX", []])]
  before := [(name ++ c!"_node", elements (vars (name ++ c!"_EXPORTED_TARGETS")) ++ elements (vars c!"catkin_EXPORTED_TARGETS") ++
    [c!"convert", c!"rtcg"])]
  links := [(name ++ c!"_node", elements (vars c!"catkin_LIBRARIES") ++ [c!"convert", c!"rtcg"])]

/-- The targets that a file makes. -/
def Build.targets (b : Build) : List Str := b.libraries.map (·.1) ++ b.programs.map (·.1)

/-- The source files that a file names. -/
def Build.sources (b : Build) : List Str := b.libraries.flatMap (·.2) ++ b.programs.flatMap (·.2)

end Rtcg.Spec.CMake
