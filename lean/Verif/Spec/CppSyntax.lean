import Verif.Spec.CppLex

/-
The syntax of C++ (the part that generated programs use): trees, and a parser from tokens to trees by recursive descent.  The parser has a
limit on its depth, which `parse` sets high enough.
-/

namespace Rtcg

namespace Spec

namespace Cpp

/-! ### trees -/

/-- A type: is it const, its name, and the `*` and `&` after it -/
structure CType where
  const : Bool
  name : List Str
  ptr : List Str
  deriving DecidableEq, Repr

mutual

/-- An expression; a name is a list of words joined by `::` -/
inductive Expr where
  | name (q : List Str)
  | str (s : Str)
  | num (w : Str)
  | bool (b : Bool)
  /-- `e` and what follows it: members and calls -/
  | post (e : Expr) (s : Suf)
  /-- `!`, `-` and `&` -/
  | un (op : Str) (e : Expr)
  /-- `e << a << b` and the like -/
  | shift (e : Expr) (t : Tail)
  /-- `==` and `!=` -/
  | eq (op : Str) (a b : Expr)
  | and (a b : Expr)
  | assign (a b : Expr)

/-- `.f`, `->f`, `<T>`, `(args)` -/
inductive Suf where
  | nil
  | dot (f : Str) (s : Suf)
  | arrow (f : Str) (s : Suf)
  | inst (t : CType) (s : Suf)
  | call (a : Args) (s : Suf)

inductive Args where
  | nil
  | cons (e : Expr) (a : Args)

/-- `<< e` or `>> e`, repeated -/
inductive Tail where
  | nil
  | cons (op : Str) (e : Expr) (t : Tail)

end

mutual

inductive Stmt where
  /-- nothing, where an `else` could be -/
  | skip
  | expr (e : Expr)
  /-- `T x;`, `T x = e;` and `T x {args};` -/
  | decl (t : CType) (x : Str)
  | declEq (t : CType) (x : Str) (e : Expr)
  | declBraces (t : CType) (x : Str) (a : Args)
  | ret
  | retVal (e : Expr)
  | brk
  | ite (c : Expr) (a b : Stmt)
  | switch (e : Expr) (b : Stmts)
  | case (e : Expr)
  | dflt
  | block (b : Stmts)
  /-- `for (T x = e; c; s) b` -/
  | loop (t : CType) (x : Str) (e c s : Expr) (b : Stmt)

inductive Stmts where
  | nil
  | cons (s : Stmt) (ss : Stmts)

end

/-- A parameter: its type and name -/
abbrev Param := CType × Str

/-- What a file is made of, in order; namespaces and classes are opened and closed -/
inductive Item where
  | nsOpen (n : Str)
  | nsClose
  | clsOpen (n : Str) (base : Option (List Str))
  | clsClose
  | access (w : Str)
  | enum (n : Str) (members : List Str)
  /-- a function, with its type unless it is a constructor, and its body unless it is only declared -/
  | fn (t : Option CType) (q : List Str) (params : List Param) (body : Option Stmts)
  | var (t : CType) (x : Str) (e : Option Expr)

/-! ### words -/

/-- The keywords of C++11 -/
def keywords : List Str :=
  [ c!"alignas", c!"alignof", c!"and", c!"and_eq", c!"asm", c!"auto", c!"bitand", c!"bitor", c!"bool", c!"break", c!"case", c!"catch",
    c!"char", c!"char16_t", c!"char32_t", c!"class", c!"compl", c!"const", c!"constexpr", c!"const_cast", c!"continue", c!"decltype",
    c!"default", c!"delete", c!"do", c!"double", c!"dynamic_cast", c!"else", c!"enum", c!"explicit", c!"export", c!"extern", c!"false",
    c!"float", c!"for", c!"friend", c!"goto", c!"if", c!"inline", c!"int", c!"long", c!"mutable", c!"namespace", c!"new", c!"noexcept",
    c!"not", c!"not_eq", c!"nullptr", c!"operator", c!"or", c!"or_eq", c!"private", c!"protected", c!"public", c!"register",
    c!"reinterpret_cast", c!"return", c!"short", c!"signed", c!"sizeof", c!"static", c!"static_assert", c!"static_cast", c!"struct",
    c!"switch", c!"template", c!"this", c!"thread_local", c!"throw", c!"true", c!"try", c!"typedef", c!"typeid", c!"typename", c!"union",
    c!"unsigned", c!"using", c!"virtual", c!"void", c!"volatile", c!"wchar_t", c!"while", c!"xor", c!"xor_eq" ]

def digit (c : Char) : Bool := 48 ≤ c.toNat && c.toNat ≤ 57

/-- A word that can be a name -/
def isIdent (w : Str) : Bool := w.head?.any (fun c => wordChar c && !digit c) && w.all wordChar && !keywords.contains w

/-- A number: decimal, so without a leading zero unless it is zero -/
def isNum (w : Str) : Bool := w ≠ [] && w.all digit && (w.head? ≠ some '0' || w.length = 1)

/-- The types that are keywords -/
def builtin : List Str := [c!"void", c!"bool", c!"char", c!"int", c!"double", c!"auto"]

/-! ### the parser -/

def next (t : Tok) (ts : List Tok) : Bool := ts.head? = some t

def expect (t : Tok) (ts : List Tok) : Option (List Tok) := if next t ts then some ts.tail else none

def ident : List Tok → Option (Str × List Tok)
  | .word w :: ts => if isIdent w then some (w, ts) else none
  | _ => none

/-- `::` and a name, repeated -/
def qtail : List Tok → List Str × List Tok
  | .op o :: .word w :: ts => if o = c!"::" && isIdent w then (w :: (qtail ts).1, (qtail ts).2) else ([], .op o :: .word w :: ts)
  | ts => ([], ts)

def qname (ts : List Tok) : Option (List Str × List Tok) :=
  (ident ts).map fun r => (r.1 :: (qtail r.2).1, (qtail r.2).2)

def ptrs : List Tok → List Str × List Tok
  | .op o :: ts => if o = c!"*" || o = c!"&" then (o :: (ptrs ts).1, (ptrs ts).2) else ([], .op o :: ts)
  | ts => ([], ts)

/-- The name of a type -/
def typeName (ts : List Tok) : Option (List Str × List Tok) :=
  if next (.word c!"unsigned") ts then (expect (.word c!"int") ts.tail).map fun r => ([c!"unsigned int"], r)
  else match ts with
    | .word w :: r => if builtin.contains w then some ([w], r) else qname ts
    | _ => none

def type (ts : List Tok) : Option (CType × List Tok) :=
  if next (.word c!"const") ts then (typeName ts.tail).map fun r => (⟨true, r.1, (ptrs r.2).1⟩, (ptrs r.2).2)
  else (typeName ts).map fun r => (⟨false, r.1, (ptrs r.2).1⟩, (ptrs r.2).2)

/-- Names, literals -/
def primary : List Tok → Option (Expr × List Tok)
  | .str s :: ts => some (.str s, ts)
  | .word w :: ts =>
    if w = c!"true" then some (.bool true, ts)
    else if w = c!"false" then some (.bool false, ts)
    else if isNum w then some (.num w, ts)
    else (qname (.word w :: ts)).map fun r => (.name r.1, r.2)
  | _ => none

mutual

/-- An expression, by precedence: assignment 0, `&&` 1, comparison 2, shift 3, prefix 4, members and calls 5 -/
def expr : Nat → Nat → List Tok → Option (Expr × List Tok)
  | 0, _, _ => none
  | n + 1, 0, ts => do
    let (a, ts) ← expr n 1 ts
    if next (.op c!"=") ts then
      let (b, ts) ← expr n 0 ts.tail
      some (.assign a b, ts)
    else some (a, ts)
  | n + 1, 1, ts => do
    let (a, ts) ← expr n 2 ts
    if next (.op c!"&&") ts then
      let (b, ts) ← expr n 1 ts.tail
      some (.and a b, ts)
    else some (a, ts)
  | n + 1, 2, ts => do
    let (a, ts) ← expr n 3 ts
    if next (.op c!"==") ts then
      let (b, ts) ← expr n 3 ts.tail
      some (.eq c!"==" a b, ts)
    else if next (.op c!"!=") ts then
      let (b, ts) ← expr n 3 ts.tail
      some (.eq c!"!=" a b, ts)
    else some (a, ts)
  | n + 1, 3, ts => do
    let (a, ts) ← expr n 4 ts
    let (t, ts) ← tail n ts
    match t with
    | .nil => some (a, ts)
    | t => some (.shift a t, ts)
  | n + 1, 4, ts =>
    if next (.op c!"!") ts then (expr n 4 ts.tail).map fun r => (.un c!"!" r.1, r.2)
    else if next (.op c!"-") ts then (expr n 4 ts.tail).map fun r => (.un c!"-" r.1, r.2)
    else if next (.op c!"&") ts then (expr n 4 ts.tail).map fun r => (.un c!"&" r.1, r.2)
    else expr n 5 ts
  | n + 1, _, ts => do
    let (a, ts) ← primary ts
    let (s, ts) ← suf n ts
    match s with
    | .nil => some (a, ts)
    | s => some (.post a s, ts)

/-- What follows a shift operator, as long as there are any -/
def tail : Nat → List Tok → Option (Tail × List Tok)
  | 0, _ => none
  | n + 1, ts =>
    if next (.op c!"<<") ts then do
      let (e, ts) ← expr n 4 ts.tail
      let (t, ts) ← tail n ts
      some (.cons c!"<<" e t, ts)
    else if next (.op c!">>") ts then do
      let (e, ts) ← expr n 4 ts.tail
      let (t, ts) ← tail n ts
      some (.cons c!">>" e t, ts)
    else some (.nil, ts)

/-- Members and calls -/
def suf : Nat → List Tok → Option (Suf × List Tok)
  | 0, _ => none
  | n + 1, ts =>
    if next (.op c!".") ts then do
      let (f, ts) ← ident ts.tail
      let (s, ts) ← suf n ts
      some (.dot f s, ts)
    else if next (.op c!"->") ts then do
      let (f, ts) ← ident ts.tail
      let (s, ts) ← suf n ts
      some (.arrow f s, ts)
    else if next (.op c!"<") ts then do
      let (t, ts) ← type ts.tail
      let ts ← expect (.op c!">") ts
      let (s, ts) ← suf n ts
      some (.inst t s, ts)
    else if next (.op c!"(") ts then do
      let (a, ts) ← args n c!")" ts.tail
      let (s, ts) ← suf n ts
      some (.call a s, ts)
    else some (.nil, ts)

/-- Arguments up to the closing bracket, none or some -/
def args : Nat → Str → List Tok → Option (Args × List Tok)
  | 0, _, _ => none
  | n + 1, close, ts => if next (.op close) ts then some (.nil, ts.tail) else args1 n close ts

/-- At least one argument -/
def args1 : Nat → Str → List Tok → Option (Args × List Tok)
  | 0, _, _ => none
  | n + 1, close, ts => do
    let (e, ts) ← expr n 0 ts
    if next (.op c!",") ts then
      let (a, ts) ← args1 n close ts.tail
      some (.cons e a, ts)
    else
      let ts ← expect (.op close) ts
      some (.cons e .nil, ts)

end

mutual

/-- A statement -/
def stmt : Nat → List Tok → Option (Stmt × List Tok)
  | 0, _ => none
  | n + 1, ts =>
    if next (.op c!"{") ts then do
      let (b, ts) ← stmts n ts.tail
      let ts ← expect (.op c!"}") ts
      some (.block b, ts)
    else if next (.word c!"if") ts then do
      let ts ← expect (.op c!"(") ts.tail
      let (c, ts) ← expr n 0 ts
      let ts ← expect (.op c!")") ts
      let (a, ts) ← stmt n ts
      if next (.word c!"else") ts then
        let (b, ts) ← stmt n ts.tail
        some (.ite c a b, ts)
      else some (.ite c a .skip, ts)
    else if next (.word c!"switch") ts then do
      let ts ← expect (.op c!"(") ts.tail
      let (e, ts) ← expr n 0 ts
      let ts ← expect (.op c!")") ts
      let ts ← expect (.op c!"{") ts
      let (b, ts) ← stmts n ts
      let ts ← expect (.op c!"}") ts
      some (.switch e b, ts)
    else if next (.word c!"case") ts then do
      let (e, ts) ← expr n 2 ts.tail
      let ts ← expect (.op c!":") ts
      some (.case e, ts)
    else if next (.word c!"default") ts then do
      let ts ← expect (.op c!":") ts.tail
      some (.dflt, ts)
    else if next (.word c!"break") ts then do
      let ts ← expect (.op c!";") ts.tail
      some (.brk, ts)
    else if next (.word c!"return") ts then
      if next (.op c!";") ts.tail then some (.ret, ts.tail.tail)
      else do
        let (e, ts) ← expr n 0 ts.tail
        let ts ← expect (.op c!";") ts
        some (.retVal e, ts)
    else if next (.word c!"for") ts then do
      let ts ← expect (.op c!"(") ts.tail
      let (t, ts) ← type ts
      let (x, ts) ← ident ts
      let ts ← expect (.op c!"=") ts
      let (e, ts) ← expr n 0 ts
      let ts ← expect (.op c!";") ts
      let (c, ts) ← expr n 0 ts
      let ts ← expect (.op c!";") ts
      let (s, ts) ← expr n 0 ts
      let ts ← expect (.op c!")") ts
      let (b, ts) ← stmt n ts
      some (.loop t x e c s b, ts)
    else match (do
        let (t, ts) ← type ts
        let (x, ts) ← ident ts
        some ((t, x), ts)) with
      | some ((t, x), ts) =>
        if next (.op c!"=") ts then do
          let (e, ts) ← expr n 0 ts.tail
          let ts ← expect (.op c!";") ts
          some (.declEq t x e, ts)
        else if next (.op c!"{") ts then do
          let (a, ts) ← args n c!"}" ts.tail
          let ts ← expect (.op c!";") ts
          some (.declBraces t x a, ts)
        else do
          let ts ← expect (.op c!";") ts
          some (.decl t x, ts)
      | none => do
        let (e, ts) ← expr n 0 ts
        let ts ← expect (.op c!";") ts
        some (.expr e, ts)

/-- Statements up to a closing brace -/
def stmts : Nat → List Tok → Option (Stmts × List Tok)
  | 0, _ => none
  | n + 1, ts =>
    if next (.op c!"}") ts then some (.nil, ts)
    else do
      let (s, ts) ← stmt n ts
      let (ss, ts) ← stmts n ts
      some (.cons s ss, ts)

end

/-- Parameters up to the closing bracket -/
def params : Nat → List Tok → Option (List Param × List Tok)
  | 0, _ => none
  | n + 1, ts =>
    if next (.op c!")") ts then some ([], ts.tail)
    else do
      let (t, ts) ← type ts
      let (x, ts) ← ident ts
      if next (.op c!",") ts then
        if next (.op c!")") ts.tail then none
        else
          let (ps, ts) ← params n ts.tail
          some ((t, x) :: ps, ts)
      else
        let ts ← expect (.op c!")") ts
        some ([(t, x)], ts)

/-- The members of an enumeration, up to the closing brace; there may be a comma after the last one -/
def members : Nat → List Tok → Option (List Str × List Tok)
  | 0, _ => none
  | n + 1, ts =>
    if next (.op c!"}") ts then some ([], ts.tail)
    else do
      let (m, ts) ← ident ts
      if next (.op c!",") ts then
        let (ms, ts) ← members n ts.tail
        some (m :: ms, ts)
      else
        let ts ← expect (.op c!"}") ts
        some ([m], ts)

/-- The name of a function -/
def fnName : List Tok → Option (List Str × List Tok)
  | .word w :: .op o :: ts => if w = c!"operator" then some ([w ++ o], ts) else qname (.word w :: .op o :: ts)
  | ts => qname ts

/-- The rest of a function after its name -/
def fnRest (n : Nat) (t : Option CType) (q : List Str) (ts : List Tok) : Option (Item × List Tok) := do
  let ts ← expect (.op c!"(") ts
  let (ps, ts) ← params n ts
  if next (.op c!"{") ts then
    let (b, ts) ← stmts n ts.tail
    let ts ← expect (.op c!"}") ts
    some (.fn t q ps (some b), ts)
  else
    let ts ← expect (.op c!";") ts
    some (.fn t q ps none, ts)

/-- An item that starts with a type or a name -/
def declItem (n : Nat) (ts : List Tok) : Option (Item × List Tok) :=
  match qname ts with
  | some (q, r) => if next (.op c!"(") r then fnRest n none q r else typed ts
  | none => typed ts
where
  typed (ts : List Tok) : Option (Item × List Tok) := do
    let (t, ts) ← type ts
    let (q, ts) ← fnName ts
    if next (.op c!"(") ts then fnRest n (some t) q ts
    else match q with
      | [x] =>
        if next (.op c!"=") ts then do
          let (e, ts) ← expr n 0 ts.tail
          let ts ← expect (.op c!";") ts
          some (.var t x (some e), ts)
        else do
          let ts ← expect (.op c!";") ts
          some (.var t x none, ts)
      | _ => none

def item (n : Nat) (ts : List Tok) : Option (Item × List Tok) :=
  if next (.word c!"namespace") ts then do
    let (x, ts) ← ident ts.tail
    let ts ← expect (.op c!"{") ts
    some (.nsOpen x, ts)
  else if next (.op c!"}") ts then
    if next (.op c!";") ts.tail then some (.clsClose, ts.tail.tail) else some (.nsClose, ts.tail)
  else if next (.word c!"enum") ts then do
    let ts ← expect (.word c!"class") ts.tail
    let (x, ts) ← ident ts
    let ts ← expect (.op c!"{") ts
    let (ms, ts) ← members n ts
    let ts ← expect (.op c!";") ts
    some (.enum x ms, ts)
  else if next (.word c!"class") ts then do
    let (x, ts) ← ident ts.tail
    if next (.op c!":") ts then
      let ts ← expect (.word c!"public") ts.tail
      let (b, ts) ← qname ts
      let ts ← expect (.op c!"{") ts
      some (.clsOpen x (some b), ts)
    else
      let ts ← expect (.op c!"{") ts
      some (.clsOpen x none, ts)
  else if next (.word c!"public") ts || next (.word c!"private") ts || next (.word c!"protected") ts then do
    let ts' ← expect (.op c!":") ts.tail
    match ts with
    | .word w :: _ => some (.access w, ts')
    | _ => none
  else declItem n ts

/-- A whole file -/
def items : Nat → List Tok → Option (List Item)
  | 0, _ => none
  | _ + 1, [] => some []
  | n + 1, ts => do
    let (i, ts) ← item n ts
    let is ← items n ts
    some (i :: is)

/-- The items of a file.  The depth is enough for any file: no two calls in a row of the parser that leave the tokens as they are come
back to the same one, and there are fewer than sixteen. -/
def parse (ts : List Tok) : Option (List Item) := items (16 * ts.length + 16) ts

/-- Do the opened namespaces and classes match the closed ones? -/
def balanced : List Item → List Bool → Bool
  | [], st => st = []
  | .nsOpen _ :: is, st => balanced is (true :: st)
  | .nsClose :: is, st => st.head? = some true && balanced is st.tail
  | .clsOpen _ _ :: is, st => balanced is (false :: st)
  | .clsClose :: is, st => st.head? = some false && balanced is st.tail
  | _ :: is, st => balanced is st

end Cpp

end Spec

end Rtcg
