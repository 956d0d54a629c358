import Verif.Model.Base

/-
The part of Go's text/template (Go 1.20) that the templates of /repo use: the lexer (text/template/parse/lex.go), the parser
(text/template/parse/parse.go), the association of templates (text/template/template.go) and their execution
(text/template/exec.go).  It is called from gen/templating/set.go:58-73 and gen/templating/templating.go:12-21.

Simplifications: only the actions and operands that occur in the templates of /repo are known (no `break`, `continue`, assignment,
methods with arguments, escapes in strings, characters, floats, nil, booleans); anything else makes the parse fail.  All failures of an
execution are one error.
-/

namespace Rtcg

namespace Tmpl

/-! ### the lexer -/

/-- parse.item of an action: lex.go:19-74 -/
inductive Tok where
  | ident (s : Str)
  | field (s : Str)
  | var (s : Str)
  | str (s : Str)
  | num (n : Nat)
  | dot | lpar | rpar | declare | comma | pipe | space
  deriving DecidableEq, Repr

/-- The text between actions, and actions by their items. (text/template, called at gen/templating/set.go:65-70.) -/
inductive Item where
  | text (s : Str)
  | action (toks : List Tok)
  deriving DecidableEq, Repr

/-- isSpace, lex.go: `r == ' ' || r == '\t' || r == '\r' || r == '\n'` -/
def isSpaceChar (c : Char) : Bool := c = ' ' || c = '\t' || c = '\r' || c = '\n'

/-- isAlphaNumeric, lex.go.  Simplification: ASCII only. -/
def isAlnum (c : Char) : Bool := c = '_' || c.isAlphanum

/-- What is before and after the first occurrence of two characters (strings.Index) (text/template, called at gen/templating/set.go:65-70.) -/
def cutAt (a b : Char) : Str → Option (Str × Str)
  | [] => none
  | c :: cs =>
    if c = a && cs.head? = some b then some ([], cs.tail)
    else match cutAt a b cs with
      | none => none
      | some (t, r) => some (c :: t, r)

/-- atRightDelim, lex.go: `}}`, or a space, a minus and `}}`: whether to trim, and what follows -/
def rightDelim (s : Str) : Option (Bool × Str) :=
  match s with
  | c0 :: c1 :: r =>
    if c0 = '}' && c1 = '}' then some (false, r)
    else if isSpaceChar c0 && c1 = '-' && r.head? = some '}' && r.tail.head? = some '}' then some (true, r.tail.tail)
    else none
  | _ => none

/-- hasLeftTrimMarker, lex.go: a minus and a space after `{{`: whether to trim, and what follows -/
def leftMarker (s : Str) : Bool × Str :=
  match s with
  | c0 :: c1 :: r => if c0 = '-' && isSpaceChar c1 then (true, r) else (false, s)
  | _ => (false, s)

/-- One item at the start of a non-empty text inside an action (lexInsideAction, lexIdentifier, lexField, lexVariable, lexQuote,
lexNumber): the item and what follows.  A run of spaces is one space item per character here (the parser skips them).
(text/template, called at gen/templating/set.go:65-70.) -/
def lexTok (c : Char) (cs : Str) : Option (Tok × Str) :=
  if isSpaceChar c then some (.space, cs)
  else if c = '"' then
    let body := cs.takeWhile (fun d => d ≠ '"')
    if body.any (fun d => d = '\\' || d = '\n') then none
    else match cs.dropWhile (fun d => d ≠ '"') with
      | [] => none
      | _ :: r => some (.str body, r)
  else if c = '$' then some (.var (cs.takeWhile isAlnum), cs.dropWhile isAlnum)
  else if c = '.' then
    if (cs.head?.map isAlnum).getD false then some (.field (cs.takeWhile isAlnum), cs.dropWhile isAlnum) else some (.dot, cs)
  else if c = ':' then (if cs.head? = some '=' then some (.declare, cs.tail) else none)
  else if c = ',' then some (.comma, cs)
  else if c = '|' then some (.pipe, cs)
  else if c = '(' then some (.lpar, cs)
  else if c = ')' then some (.rpar, cs)
  else if c.isDigit then
    let ds := (c :: cs).takeWhile Char.isDigit
    some (.num (Nat.ofDigitChars 10 ds 0), (c :: cs).dropWhile Char.isDigit)
  else if isAlnum c then some (.ident ((c :: cs).takeWhile isAlnum), (c :: cs).dropWhile isAlnum)
  else none

/-- The items of an action up to its right delimiter, whether that trims, and what follows. (text/template, called at gen/templating/set.go:65-70.) -/
def lexAction : Nat → Str → Option (List Tok × Bool × Str)
  | 0, _ => none
  | fuel + 1, s =>
    match rightDelim s with
    | some (trim, r) => some ([], trim, r)
    | none =>
      match s with
      | [] => none
      | c :: cs =>
        match lexTok c cs with
        | none => none
        | some (t, r) =>
          match lexAction fuel r with
          | none => none
          | some (ts, trim, r') => some (t :: ts, trim, r')

/-- The text item, if not empty (lexText) (text/template, called at gen/templating/set.go:65-70.) -/
def textItem (s : Str) : List Item := if s = [] then [] else [.text s]

/-- lexText, lexLeftDelim, lexComment and lexRightDelim: a whole template; `trim` says whether the last delimiter trims.
(text/template, called at gen/templating/set.go:65-70.) -/
def lexFile : Nat → Bool → Str → Option (List Item)
  | 0, _, _ => none
  | fuel + 1, trim, s =>
    let s := if trim then s.dropWhile isSpaceChar else s
    match cutAt '{' '{' s with
    | none => some (textItem s)
    | some (t, r) =>
      let (ltrim, r) := leftMarker r
      let pre := textItem (if ltrim then (t.reverse.dropWhile isSpaceChar).reverse else t)
      if r.head? = some '/' && r.tail.head? = some '*' then
        match cutAt '*' '/' r.tail.tail with
        | none => none
        | some (_, r) =>
          match rightDelim r with
          | none => none
          | some (trim, r) =>
            match lexFile fuel trim r with
            | none => none
            | some is => some (pre ++ is)
      else
        match lexAction (r.length + 1) r with
        | none => none
        | some (ts, trim, r) =>
          match lexFile fuel trim r with
          | none => none
          | some is => some (pre ++ .action ts :: is)

/-! ### the parser -/

/-- Pipelines, commands and operands (PipeNode, CommandNode, FieldNode, VariableNode, ChainNode, IdentifierNode, StringNode,
NumberNode).  A function is applied to one operand at a time; `a | f b` is `f b a`. (text/template, called at gen/templating/set.go:65-70.) -/
inductive Term where
  | dot
  | var (x : Str)
  | str (s : Str)
  | num (n : Nat)
  | fn (f : Str)
  | fld (t : Term) (f : Str)
  | ap (f x : Term)
  deriving DecidableEq, Repr

/-- Lists of nodes (ListNode, TextNode, ActionNode, IfNode, RangeNode, WithNode, TemplateNode): each node carries the rest of its list.
(text/template, called at gen/templating/set.go:65-70.) -/
inductive Node where
  | nil
  | text (s : Str) (rest : Node)
  | action (t : Term) (rest : Node)
  | decl (x : Str) (t : Term) (rest : Node)
  | ite (t : Term) (a b rest : Node)
  | range (vars : List Str) (t : Term) (a b rest : Node)
  | with_ (t : Term) (a b rest : Node)
  | template (name : Str) (t : Option Term) (rest : Node)
  deriving DecidableEq, Repr

/-- Skip space items (nextNonSpace, peekNonSpace) (text/template, called at gen/templating/set.go:65-70.) -/
def skip : List Tok → List Tok
  | .space :: ts => skip ts
  | ts => ts

/-- The fields directly after an operand (operand, parse.go) -/
def chain : Term → List Tok → Term × List Tok
  | t, .field f :: ts => chain (.fld t f) ts
  | t, ts => (t, ts)

mutual

/-- operand and term, parse.go -/
def operand : Nat → List Tok → Option (Term × List Tok)
  | 0, _ => none
  | fuel + 1, toks =>
    match toks with
    | .dot :: ts => some (chain .dot ts)
    | .field f :: ts => some (chain (.fld .dot f) ts)
    | .var x :: ts => some (chain (.var x) ts)
    | .str s :: ts => some (.str s, ts)
    | .num n :: ts => some (.num n, ts)
    | .ident f :: ts => some (.fn f, ts)
    | .lpar :: ts =>
      match pipeline fuel ts with
      | some (t, .rpar :: ts) => some (chain t ts)
      | _ => none
    | _ => none

/-- The operands of a command after the first (command, parse.go) -/
def arguments : Nat → Term → List Tok → Option (Term × List Tok)
  | 0, _, _ => none
  | fuel + 1, t, toks =>
    match toks with
    | .space :: ts =>
      match skip ts with
      | [] => some (t, [])
      | .pipe :: ts => some (t, .pipe :: ts)
      | .rpar :: ts => some (t, .rpar :: ts)
      | ts =>
        match operand fuel ts with
        | none => none
        | some (x, ts) => arguments fuel (.ap t x) ts
    | ts => some (t, ts)

/-- The commands of a pipeline after the first (pipeline, parse.go) -/
def commands : Nat → Term → List Tok → Option (Term × List Tok)
  | 0, _, _ => none
  | fuel + 1, t, toks =>
    match toks with
    | .pipe :: ts =>
      match operand fuel (skip ts) with
      | none => none
      | some (f, ts) =>
        match arguments fuel f ts with
        | none => none
        | some (f, ts) => commands fuel (.ap f t) ts
    | ts => some (t, ts)

/-- pipeline, parse.go -/
def pipeline : Nat → List Tok → Option (Term × List Tok)
  | 0, _ => none
  | fuel + 1, toks =>
    match operand fuel (skip toks) with
    | none => none
    | some (t, ts) =>
      match arguments fuel t ts with
      | none => none
      | some (t, ts) => commands fuel t ts

end

/-- A pipeline that is the rest of an action. (text/template, called at gen/templating/set.go:65-70.) -/
def pipe (ts : List Tok) : Option Term :=
  match pipeline (2 * ts.length + 2) ts with
  | some (t, []) => some t
  | _ => none

/-- What an action is (action, parse.go) -/
inductive Act where
  | emit (t : Term)
  | decl (x : Str) (t : Term)
  | ite (t : Term)
  | range (vars : List Str) (t : Term)
  | with_ (t : Term)
  | template (name : Str) (t : Option Term)
  | block (name : Str) (t : Term)
  | define (name : Str)
  | else_
  | elseIf (t : Term)
  | end_
  deriving DecidableEq, Repr

/-- `range`, with its variables (pipeline, parse.go) -/
def rangeAct (ts : List Tok) : Option Act :=
  match skip ts with
  | .var x :: ts' =>
    match skip ts' with
    | .declare :: ts'' => (pipe ts'').map (.range [x])
    | .comma :: ts'' =>
      match skip ts'' with
      | .var y :: ts'' =>
        match skip ts'' with
        | .declare :: ts'' => (pipe ts'').map (.range [x, y])
        | _ => none
      | _ => none
    | _ => (pipe ts).map (.range [])
  | _ => (pipe ts).map (.range [])

/-- An action that starts with no keyword: a declaration, or a pipeline. (text/template, called at gen/templating/set.go:65-70.) -/
def plainAct (ts : List Tok) : Option Act :=
  match ts with
  | .var x :: ts' =>
    match skip ts' with
    | .declare :: ts'' => (pipe ts'').map (.decl x)
    | _ => (pipe ts).map .emit
  | _ => (pipe ts).map .emit

/-- The name of a template and what follows (parseTemplateName, parse.go) -/
def templateName (ts : List Tok) : Option (Str × List Tok) :=
  match skip ts with
  | .str s :: ts => some (s, skip ts)
  | _ => none

/-- What the items of an action say (action, parse.go) -/
def classify (ts : List Tok) : Option Act :=
  match skip ts with
  | .ident k :: ts =>
    if k = c!"if" then (pipe ts).map .ite
    else if k = c!"range" then rangeAct ts
    else if k = c!"with" then (pipe ts).map .with_
    else if k = c!"template" then
      match templateName ts with
      | some (s, []) => some (.template s none)
      | some (s, ts) => (pipe ts).map (fun t => .template s (some t))
      | none => none
    else if k = c!"block" then
      match templateName ts with
      | some (s, ts) => (pipe ts).map (.block s)
      | none => none
    else if k = c!"define" then
      match templateName ts with
      | some (s, []) => some (.define s)
      | _ => none
    else if k = c!"else" then
      match skip ts with
      | [] => some .else_
      | .ident k' :: ts => if k' = c!"if" then (pipe ts).map .elseIf else none
      | _ => none
    else if k = c!"end" then (if skip ts = [] then some .end_ else none)
    else plainAct (.ident k :: ts)
  | ts => plainAct ts

/-- What ended a list of nodes. (text/template, called at gen/templating/set.go:65-70.) -/
inductive Stop where
  | eof | end_ | else_ | elseIf (t : Term)
  deriving DecidableEq, Repr

mutual

/-- itemList, parseControl, parseDefinition and blockControl, parse.go: a list of nodes, what ended it, what follows, and the templates
defined in it -/
def nodes : Nat → List Item → Option (Node × Stop × List Item × List (Str × Node))
  | 0, _ => none
  | _ + 1, [] => some (.nil, .eof, [], [])
  | fuel + 1, .text s :: r =>
    match nodes fuel r with
    | none => none
    | some (n, st, r, ds) => some (.text s n, st, r, ds)
  | fuel + 1, .action ts :: r =>
    match classify ts with
    | none => none
    | some .end_ => some (.nil, .end_, r, [])
    | some .else_ => some (.nil, .else_, r, [])
    | some (.elseIf t) => some (.nil, .elseIf t, r, [])
    | some (.emit t) =>
      match nodes fuel r with
      | none => none
      | some (n, st, r, ds) => some (.action t n, st, r, ds)
    | some (.decl x t) =>
      match nodes fuel r with
      | none => none
      | some (n, st, r, ds) => some (.decl x t n, st, r, ds)
    | some (.template s t) =>
      match nodes fuel r with
      | none => none
      | some (n, st, r, ds) => some (.template s t n, st, r, ds)
    | some (.ite t) =>
      match branches fuel r with
      | none => none
      | some (a, b, r, ds) =>
        match nodes fuel r with
        | none => none
        | some (n, st, r, ds') => some (.ite t a b n, st, r, ds ++ ds')
    | some (.range vs t) =>
      match branches fuel r with
      | none => none
      | some (a, b, r, ds) =>
        match nodes fuel r with
        | none => none
        | some (n, st, r, ds') => some (.range vs t a b n, st, r, ds ++ ds')
    | some (.with_ t) =>
      match branches fuel r with
      | none => none
      | some (a, b, r, ds) =>
        match nodes fuel r with
        | none => none
        | some (n, st, r, ds') => some (.with_ t a b n, st, r, ds ++ ds')
    | some (.define s) =>
      match nodes fuel r with
      | some (a, .end_, r, ds) =>
        match nodes fuel r with
        | none => none
        | some (n, st, r, ds') => some (n, st, r, (s, a) :: ds ++ ds')
      | _ => none
    | some (.block s t) =>
      match nodes fuel r with
      | some (a, .end_, r, ds) =>
        match nodes fuel r with
        | none => none
        | some (n, st, r, ds') => some (.template s (some t) n, st, r, (s, a) :: ds ++ ds')
      | _ => none

/-- parseControl, parse.go: the two lists of an `if`, `range` or `with`; `else if` is an `if` in the second list with the same `end` -/
def branches : Nat → List Item → Option (Node × Node × List Item × List (Str × Node))
  | 0, _ => none
  | fuel + 1, is =>
    match nodes fuel is with
    | some (a, .end_, r, ds) => some (a, .nil, r, ds)
    | some (a, .else_, r, ds) =>
      match nodes fuel r with
      | some (b, .end_, r, ds') => some (a, b, r, ds ++ ds')
      | _ => none
    | some (a, .elseIf t, r, ds) =>
      match branches fuel r with
      | some (a', b', r, ds') => some (a, .ite t a' b' .nil, r, ds ++ ds')
      | none => none
    | _ => none

end

/-- Parse: the templates in a file, the file itself first. (text/template, called at gen/templating/set.go:65-70.) -/
def parseFile (name text : Str) : Option (List (Str × Node)) :=
  match lexFile (text.length + 1) false text with
  | none => none
  | some is =>
    match nodes (2 * is.length + 2) is with
    | some (n, .eof, _, ds) => some ((name, n) :: ds)
    | _ => none

/-! ### associated templates -/

/-- IsEmptyTree, parse.go: only white space -/
def isEmptyTree : Node → Bool
  | .nil => true
  | .text s rest => trimSpace s = [] && isEmptyTree rest
  | _ => false

/-- AddParseTree and associate, template.go: a new definition replaces an old one unless the new one is empty -/
def addTree (set : GoMap Str Node) (d : Str × Node) : GoMap Str Node :=
  if (GoMap.get? set d.1).isSome && isEmptyTree d.2 then set else GoMap.set set d.1 d.2

/-- ParseFS on files in order: gen/templating/set.go:65-70 -/
def parseFiles : GoMap Str Node → List (Str × Str) → Option (GoMap Str Node)
  | set, [] => some set
  | set, f :: fs =>
    match parseFile f.1 f.2 with
    | none => none
    | some ds => parseFiles (ds.foldl addTree set) fs

/-! ### execution -/

/-- What execution needs to know about the values it works on (exec.go and funcs.go, which use package reflect) -/
structure Data (V : Type) where
  /-- constants -/
  str : Str → V
  num : Nat → V
  /-- a field, or a method without arguments (evalField) -/
  field : V → Str → Res V
  /-- a function (evalCall) -/
  call : Str → List V → Res V
  /-- whether it counts as true (isTrue) -/
  truth : V → Bool
  /-- the keys and elements visited by `range` (walkRange) -/
  items : V → Res (List (V × V))
  /-- how it is printed (printValue) -/
  print : V → Str
  /-- the value of no data: the dot of a template invoked without argument -/
  none : V

variable {V : Type}

/-- The variables in scope, innermost first, and dot (exec.go: state) -/
structure Env (V : Type) where
  dot : V
  vars : List (Str × V)

/-- evalCommand, evalArg, evalPipeline: a term applied to arguments already evaluated. (text/template, called at gen/templating/templating.go:18.) -/
def eval (D : Data V) (env : Env V) : Term → List V → Res V
  | .fn f, args => D.call f args
  | .ap f x, args =>
    match eval D env x [] with
    | .error e => .error e
    | .ok v => eval D env f (v :: args)
  | .dot, args => if args.isEmpty then .ok env.dot else throwErr .template
  | .var x, args =>
    match env.vars.find? (fun p => p.1 = x) with
    | some p => if args.isEmpty then .ok p.2 else throwErr .template
    | Option.none => throwErr .template
  | .str s, args => if args.isEmpty then .ok (D.str s) else throwErr .template
  | .num n, args => if args.isEmpty then .ok (D.num n) else throwErr .template
  | .fld t f, args =>
    match eval D env t [] with
    | .error e => .error e
    | .ok v => if args.isEmpty then D.field v f else throwErr .template

/-- What an execution has written, and how it ended. (text/template, called at gen/templating/templating.go:18.) -/
abbrev Out := Str × Res Unit

/-- Write a text, then go on. (text/template, called at gen/templating/templating.go:18.) -/
def emit (s : Str) (o : Out) : Out := (s ++ o.1, o.2)

/-- One execution after the other, if the first succeeds. (text/template, called at gen/templating/templating.go:18.) -/
def andThen (o : Out) (k : Out) : Out :=
  match o.2 with
  | .ok () => emit o.1 k
  | .error e => (o.1, .error e)

/-- The iterations of `range` (walkRange) (text/template, called at gen/templating/templating.go:18.) -/
def iterate (f : V × V → Out) : List (V × V) → Out
  | [] => ([], .ok ())
  | kv :: kvs => andThen (f kv) (iterate f kvs)

/-- The variables of one iteration: none, the element, or the key and the element (walkRange, oneIteration) (text/template, called at gen/templating/templating.go:18.) -/
def bind (env : Env V) (vs : List Str) (kv : V × V) : Env V :=
  match vs with
  | [x] => { env with dot := kv.2, vars := (x, kv.2) :: env.vars }
  | [k, x] => { env with dot := kv.2, vars := (x, kv.2) :: (k, kv.1) :: env.vars }
  | _ => { env with dot := kv.2 }

/-- walk, exec.go: `call` executes a template by name -/
def walk (D : Data V) (call : Str → V → Out) : Node → Env V → Out
  | .nil, _ => ([], .ok ())
  | .text s rest, env => emit s (walk D call rest env)
  | .action t rest, env =>
    match eval D env t [] with
    | .error e => ([], .error e)
    | .ok v => emit (D.print v) (walk D call rest env)
  | .decl x t rest, env =>
    match eval D env t [] with
    | .error e => ([], .error e)
    | .ok v => walk D call rest { env with vars := (x, v) :: env.vars }
  | .ite t a b rest, env =>
    match eval D env t [] with
    | .error e => ([], .error e)
    | .ok v => andThen (bif D.truth v then walk D call a env else walk D call b env) (walk D call rest env)
  | .range vs t a b rest, env =>
    match eval D env t [] with
    | .error e => ([], .error e)
    | .ok v =>
      match D.items v with
      | .error e => ([], .error e)
      | .ok kvs =>
        andThen (bif kvs.isEmpty then walk D call b env else iterate (fun kv => walk D call a (bind env vs kv)) kvs)
          (walk D call rest env)
  | .with_ t a b rest, env =>
    match eval D env t [] with
    | .error e => ([], .error e)
    | .ok v => andThen (bif D.truth v then walk D call a { env with dot := v } else walk D call b env) (walk D call rest env)
  | .template s t rest, env =>
    match t with
    | Option.none => andThen (call s D.none) (walk D call rest env)
    | some t =>
      match eval D env t [] with
      | .error e => ([], .error e)
      | .ok v => andThen (call s v) (walk D call rest env)

/-- walkTemplate and ExecuteTemplate: the template called `name`, with `$` the data; templates nest up to a limit.
(text/template, called at gen/templating/templating.go:18.) -/
def execute (D : Data V) (set : GoMap Str Node) : Nat → Str → V → Out
  | 0, _, _ => ([], throwErr .template)
  | depth + 1, name, v =>
    match GoMap.get? set name with
    | Option.none => ([], throwErr .template)
    | some n => walk D (execute D set depth) n ⟨v, [([], v)]⟩

/-- maxExecDepth, exec.go -/
def maxDepth : Nat := 100000

end Tmpl

end Rtcg
