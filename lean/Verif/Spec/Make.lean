import Verif.Model.Base

/-
What a plain Makefile says: a reader for the small part of the POSIX make language that needs no quoting, macros in targets,
line continuations, comments or pattern rules.  Anything else is refused.
-/

namespace Rtcg.Spec.Make

open Rtcg

/-- A text cut at the characters satisfying `p`. -/
def cut (p : Char → Bool) : Str → List Str
  | [] => [[]]
  | c :: cs => if p c then [] :: cut p cs else (cut p cs).modifyHead (c :: ·)

/-- The lines of a text. -/
def lines (s : Str) : List Str := cut (· == '\n') s

/-- The words of a line. -/
def words (s : Str) : List Str := (cut (fun c => c == ' ' || c == '\t') s).filter (· ≠ [])

/-- A rule: what it makes, from what, and by which commands (a command is a list of words). -/
structure Rule where
  targets : List Str
  prerequisites : List Str
  recipe : List (List Str)
  deriving DecidableEq, Repr

/-- Characters with a meaning of their own in make. -/
def makeSpecial : List Char := c!":=#$%;\\"

/-- One line, after the rules read so far. -/
def readLine (rules : List Rule) (line : Str) : Option (List Rule) :=
  match line with
  | '\t' :: command =>
    -- a command, belonging to the last rule
    match rules.getLast? with
    | none => none
    | some r => some (rules.dropLast ++ [{ r with recipe := r.recipe ++ [words command] }])
  | _ =>
    if words line = [] then some rules
    else
      let front := line.takeWhile (fun c => c != ':' && c != '=')
      let rest := line.dropWhile (fun c => c != ':' && c != '=')
      if front.any (makeSpecial.contains ·) then none
      else match rest with
        | '=' :: _ => some rules   -- a macro definition
        | ':' :: pre => if pre.any (makeSpecial.contains ·) then none else some (rules ++ [⟨words front, words pre, []⟩])
        | _ => none                -- neither rule nor macro

/-- All lines. -/
def readLines : List Rule → List Str → Option (List Rule)
  | rules, [] => some rules
  | rules, l :: ls => (readLine rules l).bind (readLines · ls)

/-- The rules of a Makefile; nothing if it is not plain. -/
def read (text : Str) : Option (List Rule) := readLines [] (lines text)

/-- Characters with a meaning of their own in make, in the shell or in paths, and white space. -/
def special : List Char := makeSpecial ++ c!" \t\n\r\"'`&|<>()*?[]!~{}/" ++ [Char.ofNat 11, Char.ofNat 12]

/-- A name that can stand in a Makefile as it is. -/
def Safe (k : Str) : Prop := k ≠ [] ∧ ∀ c ∈ k, c ∉ special

instance (k : Str) : Decidable (Safe k) := inferInstanceAs (Decidable (_ ∧ _))

/-- The source files a test is compiled from, seen from the directory of the Makefile. -/
def sources (conversion : Bool) (k : Str) : List Str :=
  [c!"src/" ++ k ++ c!"/src/main.cpp", c!"src/rtcg/rtcg.cpp"] ++ (if conversion then [c!"src/convert/convert.cpp"] else [])

/-- The directories searched for headers, seen from the directory of the Makefile. -/
def includeDirs (conversion : Bool) (k : Str) : List Str :=
  [c!"src/" ++ k ++ c!"/include", c!"src/rtcg"] ++ (if conversion then [c!"src/convert"] else [])

/-- The rule for a test: compile its sources, and nothing else, to `bin/` and its name. -/
def testRule (conversion : Bool) (k : Str) : Rule :=
  { targets := [c!"bin/" ++ k]
    prerequisites := sources conversion k
    recipe := [[c!"$(CXX)", c!"$(CXXFLAGS)", c!"-o", c!"$@"] ++ (includeDirs conversion k).map (c!"-I" ++ ·) ++ sources conversion k] }

/-- All rules for a list of tests: the default target `all` asks for the directory first and then for every test. -/
def expected (conversion : Bool) (ks : List Str) : List Rule :=
  [⟨[c!".POSIX"], [], []⟩, ⟨[c!".PHONY"], [c!"all", c!"mkdir"], []⟩,
   ⟨[c!"all"], c!"mkdir" :: ks.map (c!"bin/" ++ ·), []⟩,
   ⟨[c!"mkdir"], [], [[c!"mkdir", c!"-p", c!"bin"]]⟩] ++ ks.map (testRule conversion)

end Rtcg.Spec.Make
