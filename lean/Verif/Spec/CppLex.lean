import Verif.Model.Base

/-
The words of C++ (the part that generated programs use): comments dropped, string literals and directives read, the rest cut into words
and operators.  A machine that looks at one character at a time.

Simplifications: no character literals, block comments, raw strings or numbers with a point; a directive is what follows a `#`, to the end of
the line.
-/

namespace Rtcg

namespace Spec

namespace Cpp

/-- A token: a word (identifier, keyword or number), a string literal, an operator, a directive; or something that is none of these. -/
inductive Tok where
  | word (w : Str)
  | str (s : Str)
  | op (o : Str)
  | dir (s : Str)
  | bad
  deriving DecidableEq, Repr

/-- A letter, digit or underscore -/
def wordChar (c : Char) : Bool :=
  (97 ≤ c.toNat && c.toNat ≤ 122) || (65 ≤ c.toNat && c.toNat ≤ 90) || (48 ≤ c.toNat && c.toNat ≤ 57) || c = '_'

def blank (c : Char) : Bool := c = ' ' || c = '\n' || c = '\t'

/-- The characters that operators are made of -/
def opChar (c : Char) : Bool := "(){}[];:,.<>=!&*-+/".toList.contains c

/-- The operators of two characters -/
def twoChars (a b : Char) : Bool :=
  [c!"::", c!"==", c!"!=", c!"<<", c!">>", c!"&&", c!"->"].contains [a, b]

/-- Where in a token the text is -/
inductive Mode where
  /-- between tokens -/
  | idle
  | word (w : Str)
  | op (c : Char)
  | str (s : Str)
  /-- after a backslash in a string -/
  | esc (s : Str)
  /-- in a comment, to the end of the line -/
  | line
  /-- after a backslash there -/
  | lineEsc
  /-- in a directive, to the end of the line -/
  | dir (s : Str)
  /-- after a backslash there -/
  | dirEsc (s : Str)
  deriving DecidableEq, Repr

/-- A character between tokens -/
def start (c : Char) : Mode × List Tok :=
  if wordChar c then (.word [c], [])
  else if c = '"' then (.str [], [])
  else if c = '#' then (.dir [], [])
  else if opChar c then (.op c, [])
  else if blank c then (.idle, [])
  else (.idle, [.bad])

/-- A character: the mode after it, and the tokens that are complete -/
def lexChar : Mode → Char → Mode × List Tok
  | .idle, c => start c
  | .word w, c => if wordChar c then (.word (w ++ [c]), []) else ((start c).1, .word w :: (start c).2)
  | .op a, c =>
    if a = '/' && c = '/' then (.line, [])
    else if twoChars a c then (.idle, [.op [a, c]])
    else ((start c).1, .op [a] :: (start c).2)
  | .str s, c =>
    if c = '"' then (.idle, [.str s]) else if c = '\\' then (.esc s, []) else if c = '\n' then (.idle, [.bad])
    else (.str (s ++ [c]), [])
  | .esc s, c =>
    if c = 'n' then (.str (s ++ ['\n']), []) else if c = '"' || c = '\\' then (.str (s ++ [c]), []) else (.idle, [.bad])
  | .line, c => if c = '\n' then (.idle, []) else if c = '\\' then (.lineEsc, []) else (.line, [])
  | .lineEsc, _ => (.line, [])
  | .dir s, c => if c = '\n' then (.idle, [.dir s]) else if c = '\\' then (.dirEsc s, []) else (.dir (s ++ [c]), [])
  | .dirEsc s, c => if c = '\n' then (.dir s, []) else (.dir (s ++ ['\\', c]), [])

/-- A text: the mode after it, and its tokens -/
def lexFrom : Mode → Str → Mode × List Tok
  | m, [] => (m, [])
  | m, c :: cs => ((lexFrom (lexChar m c).1 cs).1, (lexChar m c).2 ++ (lexFrom (lexChar m c).1 cs).2)

/-- The token that the end of the text completes -/
def lexEnd : Mode → List Tok
  | .idle => []
  | .word w => [.word w]
  | .op c => [.op [c]]
  | .str _ => [.bad]
  | .esc _ => [.bad]
  | .line => []
  | .lineEsc => []
  | .dir s => [.dir s]
  | .dirEsc s => [.dir s]

/-- The tokens of a text -/
def scan (s : Str) : List Tok := (lexFrom .idle s).2 ++ lexEnd (lexFrom .idle s).1

def isDir : Tok → Bool
  | .dir _ => true
  | _ => false

/-- The tokens of a text other than its directives -/
def lex (s : Str) : List Tok := (scan s).filter (fun t => !isDir t)

end Cpp

end Spec

end Rtcg
