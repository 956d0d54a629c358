import Verif.Spec.CppSyntax

/-
What a C++ program does (the part of C++ that generated programs use): an interpreter of syntax trees.

Values are not typed beforehand: what would not compile goes wrong, if it is reached.  Numbers are unbounded.  Arguments, and what is put into
streams, are evaluated from left to right.  The functions of libraries do what `Lib` says and are recorded as effects.  Objects are known by
where they are declared: the function and the variable, then the fields; the programs here do not call a function that declares objects from
itself.  Classes have at most one base, which has none.
-/

namespace Rtcg

namespace Spec

namespace Cpp

/-! ### values and states -/

inductive Val where
  | void
  | bool (b : Bool)
  | int (i : Int)
  | str (s : Str)
  /-- a member of an enumeration, by its full name -/
  | enum (q : List Str)
  /-- an object of the class `cls` -/
  | obj (p cls : List Str)
  /-- the address of an object, or of a function -/
  | addr (p : List Str)
  /-- an object that belongs to a library, by its name -/
  | glob (q : List Str)
  /-- an object that a library made -/
  | lib (h : Nat)
  deriving DecidableEq, Repr

/-- What can be seen from outside -/
inductive Effect where
  /-- a stream, and what is put into it -/
  | out (vs : List Val)
  /-- a function of a library, and its arguments; if it is a method, its name begins with a dot, and its object comes first -/
  | call (q : List Str) (args : List Val)
  deriving DecidableEq, Repr

/-- A callback that ROS will call: a method of an object, and its arguments -/
structure Event where
  fn : List Str
  obj : List Str
  args : List Val
  deriving DecidableEq, Repr

/-- Fields of objects, local variables (the latest first), effects so far, the words that can still be read, and the callbacks that will be
called -/
structure St where
  mem : List Str → Option Val
  loc : List (Str × CType × Val)
  eff : List Effect
  input : List Str
  events : List Event

/-- How it ends: with a result, waiting for input, or wrong (or: not modelled, or: out of fuel) -/
inductive Res (α : Type) where
  | ok (a : α) (st : St)
  | wait (st : St)
  | wrong

def M (α : Type) := St → Res α

namespace M

def ret {α : Type} (a : α) : M α := fun st => .ok a st

def bind {α β : Type} (m : M α) (f : α → M β) : M β := fun st =>
  match m st with
  | .ok a st => f a st
  | .wait st => .wait st
  | .wrong => .wrong

def fail {α : Type} : M α := fun _ => .wrong

def ofOption {α : Type} : Option α → M α
  | some a => ret a
  | none => fail

instance : Monad M where
  pure := ret
  bind := bind

end M

def emit (e : Effect) : M Unit := fun st => .ok () { st with eff := st.eff ++ [e] }

def setMem (p : List Str) (v : Val) : M Unit := fun st => .ok () { st with mem := fun q => if q = p then some v else st.mem q }

def addLocal (x : Str) (t : CType) (v : Val) : M Unit := fun st => .ok () { st with loc := (x, t, v) :: st.loc }

def setIn (x : Str) (v : Val) : List (Str × CType × Val) → List (Str × CType × Val)
  | [] => []
  | l :: ls => if l.1 = x then (l.1, l.2.1, v) :: ls else l :: setIn x v ls

def setLocal (x : Str) (v : Val) : M Unit := fun st => .ok () { st with loc := setIn x v st.loc }

def getLocal (st : St) (x : Str) : Option (CType × Val) := (st.loc.find? (fun l => l.1 = x)).map (·.2)

/-- What is declared inside goes away at the end -/
def inScope {α : Type} (m : M α) : M α := fun st =>
  match m st with
  | .ok a st' => .ok a { st' with loc := st'.loc.drop (st'.loc.length - st.loc.length) }
  | r => r

/-- With local variables of its own -/
def framed {α : Type} (loc : List (Str × CType × Val)) (m : M α) : M α := fun st =>
  match m { st with loc := loc } with
  | .ok a st' => .ok a { st' with loc := st.loc }
  | .wait st' => .wait { st' with loc := st.loc }
  | .wrong => .wrong

/-! ### programs -/

/-- What a program declares, with full names -/
inductive Fact where
  | fn (q : List Str) (ps : List Param) (b : Stmts)
  | enum (q : List Str) (ms : List Str)
  | cls (q : List Str) (base : Option (List Str))
  | field (cls : List Str) (t : CType) (x : Str) (e : Option Expr)
  | var (q : List Str) (t : CType) (e : Option Expr)

/-- The namespaces and classes (true) around an item, from the outside -/
abbrev Scope := List (Bool × Str)

def Scope.path (sc : Scope) : List Str := sc.map (·.2)

def Scope.inClass (sc : Scope) : Bool := sc.getLast?.any (·.1)

def Item.facts (sc : Scope) : Item → List Fact
  | .clsOpen n b => [.cls (sc.path ++ [n]) b]
  | .enum n ms => [.enum (sc.path ++ [n]) ms]
  | .fn _ q ps (some b) => [.fn (sc.path ++ q) ps b]
  | .var t x e => [if sc.inClass then .field sc.path t x e else .var (sc.path ++ [x]) t e]
  | _ => []

def Item.after (sc : Scope) : Item → Scope
  | .nsOpen n => sc ++ [(false, n)]
  | .clsOpen n _ => sc ++ [(true, n)]
  | .nsClose => sc.dropLast
  | .clsClose => sc.dropLast
  | _ => sc

/-- Everything that a file declares -/
def facts (sc : Scope) : List Item → List Fact
  | [] => []
  | i :: is => i.facts sc ++ facts (i.after sc) is

/-- A function by its full name, what it returns (constructors: nothing) and takes -/
structure Sig where
  name : List Str
  result : Option CType
  params : List CType
  deriving DecidableEq, Repr

def Item.declares (sc : Scope) : Item → List Sig
  | .fn t q ps none => [⟨sc.path ++ q, t, ps.map (·.1)⟩]
  | _ => []

def Item.defines (sc : Scope) : Item → List Sig
  | .fn t q ps (some _) => [⟨sc.path ++ q, t, ps.map (·.1)⟩]
  | _ => []

/-- The functions that a file declares (without bodies) or defines (with bodies) -/
def collect (f : Scope → Item → List Sig) (sc : Scope) : List Item → List Sig
  | [] => []
  | i :: is => f sc i ++ collect f (i.after sc) is

abbrev Prog := List Fact

namespace Prog

/-- The body of a function -/
def fn (P : Prog) (q : List Str) : Option (List Param × Stmts) :=
  P.findSome? fun
    | .fn q' ps b => if q' = q then some (ps, b) else none
    | _ => none

/-- Is it a member of an enumeration? -/
def isEnum (P : Prog) (q : List Str) : Bool :=
  P.any fun
    | .enum e ms => q.dropLast = e && q.getLast?.any (fun m => ms.contains m)
    | _ => false

/-- The base of a class, if it is a class -/
def cls (P : Prog) (q : List Str) : Option (Option (List Str)) :=
  P.findSome? fun
    | .cls q' b => if q' = q then some b else none
    | _ => none

/-- The fields of a class, without those of its base -/
def ownFields (P : Prog) (q : List Str) : List (CType × Str × Option Expr) :=
  P.filterMap fun
    | .field c t x e => if c = q then some (t, x, e) else none
    | _ => none

/-- The fields of a class -/
def fields (P : Prog) (q : List Str) : List (CType × Str × Option Expr) :=
  (match P.cls q with
   | some (some b) => P.ownFields b
   | _ => []) ++ P.ownFields q

/-- A variable outside functions -/
def var (P : Prog) (q : List Str) : Option (Option Expr) :=
  P.findSome? fun
    | .var q' _ e => if q' = q then some e else none
    | _ => none

end Prog

/-- Full names that a name can stand for in a scope, from the innermost out -/
def candidates (scope : List Str) : List Str → List (List Str)
  | [] => []
  | x :: q => ((List.range (scope.length + 1)).reverse).map fun n => scope.take n ++ (x :: q)

/-- The libraries: the objects and types they declare, the functions and methods and how many arguments they take (the name of a
method begins with a dot, and its object is the first argument), what these return, and the objects they make -/
structure Lib where
  known : List Str → Bool
  takes : List Str → Nat → Bool
  val : List Str → List Val → Val
  make : List Str → Nat

/-! ### numbers and streams -/

/-- The value of digits -/
def digits (w : Str) : Option Nat :=
  if w ≠ [] ∧ w.all digit = true then some (w.foldl (fun n c => 10 * n + (c.toNat - 48)) 0) else none

/-- A number as it is typed -/
def number (w : Str) : Option Int :=
  if w.head? = some '-' then (digits w.tail).map (fun n : Nat => -(n : Int)) else (digits w).map (fun n : Nat => (n : Int))

/-- A word read into a variable of a type -/
def readAs (t : CType) (w : Str) : Option Val :=
  if t.ptr ≠ [] then none
  else if t.name = [c!"std", c!"string"] then some (.str w)
  else if t.name = [c!"int"] then (number w).map .int
  else if t.name = [c!"unsigned int"] then (digits w).map (fun n : Nat => .int n)
  else none

/-- The macros of ROS that log what is put into a stream -/
def isLogMacro (q : List Str) : Bool :=
  match q with
  | [w] => c!"ROS_".isPrefixOf w && c!"_STREAM".isSuffixOf w
  | _ => false

/-- Equality of values -/
def veq : Val → Val → Option Bool
  | .bool a, .bool b => some (a == b)
  | .int a, .int b => some (a == b)
  | .str a, .str b => some (a == b)
  | .enum a, .enum b => if a.dropLast = b.dropLast then some (a == b) else none
  | _, _ => none

/-! ### ROS -/

def isShutdown : Effect → Bool
  | .call q _ => q = [c!"ros", c!"shutdown"]
  | _ => false

/-- Has ROS been shut down? -/
def isDown (st : St) : Bool := st.eff.any isShutdown

/-- Has the method of the object been given to ROS as a callback? -/
def registered (e : Event) (st : St) : Bool :=
  st.eff.any fun
    | .call q args => (q = [c!".subscribe"] || q = [c!".createTimer"]) && args.contains (.addr e.fn) && args.contains (.addr e.obj)
    | _ => false

/-! ### expressions -/

/-- Where an expression or statement is: the program and the libraries, the full name of the function, the object it works on, how often loops
may run, and how to call functions and to make objects -/
structure Ctx where
  prog : Prog
  lib : Lib
  self : List Str
  this : Option (List Str)
  fuel : Nat
  call : List Str → Option (List Str) → List Val → M Val
  make : List Str → List Str → List Val → M Unit

namespace Ctx

variable (C : Ctx)

def scope : List Str := C.self.dropLast

/-- The address of a field of the object at hand -/
def fieldOf (x : Str) : Option (List Str) :=
  match C.this with
  | some p => if (C.prog.fields C.scope).any (fun f => f.2.1 = x) then some (p ++ [x]) else none
  | none => none

/-- The value of a name that is not a local variable or a field -/
def global (q : List Str) : Option Val :=
  match (candidates C.scope q).findSome? (fun c =>
      if C.prog.isEnum c then some (some (Val.enum c))
      else match C.prog.var c with
        | some (some (.num w)) => some ((number w).map .int)
        | some _ => some none
        | none => none) with
  | some v => v
  | none => if C.lib.known q then some (.glob q) else none

/-- The value of a name: a local variable, a field, or something outside -/
def name (q : List Str) : M Val := fun st =>
  match q with
  | [x] =>
    match getLocal st x with
    | some l => .ok l.2 st
    | none =>
      match C.fieldOf x with
      | some a => M.ofOption (st.mem a) st
      | none => M.ofOption (C.global q) st
  | _ => M.ofOption (C.global q) st

def assign (q : List Str) (v : Val) : M Unit := fun st =>
  match q with
  | [x] =>
    match getLocal st x with
    | some _ => setLocal x v st
    | none =>
      match C.fieldOf x with
      | some a => setMem a v st
      | none => .wrong
  | _ => .wrong

/-- The address of a variable that holds an object, or of a function -/
def address (q : List Str) : M Val := fun st =>
  match q with
  | [x] =>
    match getLocal st x with
    | some (_, .obj p _) => .ok (.addr p) st
    | _ => .wrong
  | _ => if (C.prog.fn q).isSome then .ok (.addr q) st else .wrong

/-- A function of a library -/
def external (q : List Str) (args : List Val) : M Val := fun st =>
  if C.lib.takes q args.length then .ok (C.lib.val q args) { st with eff := st.eff ++ [.call q args] } else .wrong

/-- `ros::spin`: the callbacks one after the other, until one of them has shut ROS down; if there are no more, it waits.  A callback must have
been registered, by some function of ROS that was given the method and the object. -/
def spin : List Event → M Val
  | [] => fun st => if isDown st then .ok .void st else .wait st
  | e :: es => fun st =>
    if isDown st then .ok .void st
    else if registered e st then (C.call e.fn (some e.obj) e.args).bind (fun _ => spin es) { st with events := es }
    else .wrong

/-- A call by name; a method of the same class works on the same object -/
def callName (q : List Str) (args : List Val) : M Val :=
  match (candidates C.scope q).find? (fun c => (C.prog.fn c).isSome) with
  | some c => C.call c (if c.dropLast = C.scope then C.this else none) args
  | none => if q = [c!"ros", c!"spin"] then fun st => C.spin st.events st else C.external q args

/-- A call of a method; 1 stands for whatever `compare` returns for strings that differ -/
def callMethod (v : Val) (f : Str) (ts : List Str) (args : List Val) : M Val :=
  match v with
  | .obj p cls =>
    if (C.prog.fn (cls ++ [f])).isSome then C.call (cls ++ [f]) (some p) args
    else match C.prog.cls cls with
      | some (some b) => if (C.prog.fn (b ++ [f])).isSome then C.call (b ++ [f]) (some p) args else M.fail
      | _ => M.fail
  | .str s =>
    match args with
    | [.str t] => if f = c!"compare" then M.ret (.int (if s = t then 0 else 1)) else M.fail
    | _ => M.fail
  | .lib h => C.external ((c!"." ++ f) :: ts) (.lib h :: args)
  | _ => M.fail

end Ctx

def nameOf : Expr → Option (List Str)
  | .name q => some q
  | _ => none

/-- Reading words into variables -/
def readInto (x : Str) : M Unit := fun st =>
  match getLocal st x with
  | none => .wrong
  | some l =>
    match st.input with
    | [] => .wait st
    | w :: ws =>
      match readAs l.1 w with
      | some v => .ok () { st with input := ws, loc := setIn x v st.loc }
      | none => .wrong

def readTail : Tail → M Unit
  | .nil => M.ret ()
  | .cons op e t =>
    match nameOf e with
    | some [x] => if op = c!">>" then do { readInto x; readTail t } else M.fail
    | _ => M.fail

def not' : Val → M Val
  | .bool b => M.ret (.bool (!b))
  | _ => M.fail

def neg : Val → M Val
  | .int i => M.ret (.int (-i))
  | _ => M.fail

def truth : Val → M Bool
  | .bool b => M.ret b
  | _ => M.fail

mutual

def evalE (C : Ctx) : Expr → M Val
  | .name q => C.name q
  | .str s => M.ret (.str s)
  | .num w => M.ofOption ((digits w).map fun n => .int n)
  | .bool b => M.ret (.bool b)
  | .post e s =>
    match nameOf e, s with
    | some q, .call a s =>
      if isLogMacro q then do
        let vs ← evalLog C a
        emit (.out (.glob q :: vs))
        M.ret .void
      else do
        let vs ← evalA C a
        let v ← C.callName q vs
        evalS C v s
    | _, s => do
      let v ← evalE C e
      evalS C v s
  | .un op e =>
    if op = c!"!" then (evalE C e).bind not'
    else if op = c!"-" then (evalE C e).bind neg
    else match nameOf e with
      | some q => C.address q
      | none => M.fail
  | .shift e t =>
    if nameOf e = some [c!"std", c!"cin"] then do
      readTail t
      M.ret .void
    else do
      let v ← evalE C e
      let vs ← evalT C t
      emit (.out (v :: vs))
      M.ret .void
  | .eq op a b => do
    let x ← evalE C a
    let y ← evalE C b
    match veq x y with
    | some r => M.ret (.bool (if op = c!"==" then r else !r))
    | none => M.fail
  | .and a b => do
    let x ← evalE C a
    let r ← truth x
    if r then (do
      let y ← evalE C b
      let r ← truth y
      M.ret (.bool r)) else M.ret (.bool false)
  | .assign a b => do
    let v ← evalE C b
    match nameOf a with
    | some q => do
      C.assign q v
      M.ret v
    | none => M.fail

/-- Members and calls after a value -/
def evalS (C : Ctx) (v : Val) : Suf → M Val
  | .nil => M.ret v
  | .dot f (.call a s) => do
    let vs ← evalA C a
    let v ← C.callMethod v f [] vs
    evalS C v s
  | .dot f (.inst t (.call a s)) => do
    let vs ← evalA C a
    let v ← C.callMethod v f t.name vs
    evalS C v s
  | _ => M.fail

def evalA (C : Ctx) : Args → M (List Val)
  | .nil => M.ret []
  | .cons e a => do
    let v ← evalE C e
    let vs ← evalA C a
    M.ret (v :: vs)

/-- What is put into a stream -/
def evalT (C : Ctx) : Tail → M (List Val)
  | .nil => M.ret []
  | .cons op e t =>
    if op = c!"<<" then do
      let v ← evalE C e
      let vs ← evalT C t
      M.ret (v :: vs)
    else M.fail

/-- What is logged: the argument of a log macro is spelled out as a stream -/
def evalLog (C : Ctx) : Args → M (List Val)
  | .cons (.shift e t) .nil => do
    let v ← evalE C e
    let vs ← evalT C t
    M.ret (v :: vs)
  | _ => M.fail

end

/-! ### statements -/

inductive Flow where
  | next
  | brk
  | ret (v : Val)
  deriving DecidableEq, Repr

/-- The first value of a variable without one: objects of classes of the program are made elsewhere -/
def initial (L : Lib) (t : CType) : Option Val :=
  if t.ptr ≠ [] then some .void
  else if t.name = [c!"std", c!"string"] then some (.str [])
  else if t.name = [c!"int"] ∨ t.name = [c!"unsigned int"] ∨ t.name = [c!"double"] ∨ t.name = [c!"bool"] then some .void
  else if L.known t.name then some (.lib (L.make t.name))
  else none

namespace Ctx

variable (C : Ctx)

/-- The class a type stands for -/
def classOf (q : List Str) : Option (List Str) := (candidates C.scope q).find? (fun c => (C.prog.cls c).isSome)

/-- A variable that holds a new object -/
def object (t : CType) (x : Str) (args : List Val) : M Unit :=
  match C.classOf t.name with
  | some c => do
    C.make c (C.self ++ [x]) args
    addLocal x t (.obj (C.self ++ [x]) c)
  | none => M.fail

def declare (t : CType) (x : Str) : M Unit :=
  match C.classOf t.name with
  | some _ => C.object t x []
  | none =>
    match initial C.lib t with
    | some v => addLocal x t v
    | none => M.fail

/-- Is it the label of a value? -/
def isCase (v : Val) : Stmt → Bool
  | .case (.name q) => C.global q = some v
  | _ => false

def hasCase (v : Val) : Stmts → Bool
  | .nil => false
  | .cons s ss => C.isCase v s || hasCase v ss

end Ctx

def isDefault : Stmt → Bool
  | .dflt => true
  | _ => false

/-- `for` -/
def iterate (cond : M Bool) (step : M Unit) (body : M Flow) : Nat → M Flow
  | 0 => M.fail
  | n + 1 => do
    let b ← cond
    if b then do
      let f ← body
      match f with
      | .ret v => M.ret (.ret v)
      | .brk => M.ret .next
      | .next => do
        step
        iterate cond step body n
    else M.ret .next

mutual

def execS (C : Ctx) : Stmt → M Flow
  | .skip => M.ret .next
  | .expr e => do
    let _ ← evalE C e
    M.ret .next
  | .decl t x => do
    C.declare t x
    M.ret .next
  | .declEq t x e => do
    let v ← evalE C e
    addLocal x t v
    M.ret .next
  | .declBraces t x a => do
    let vs ← evalA C a
    C.object t x vs
    M.ret .next
  | .ret => M.ret (.ret .void)
  | .retVal e => do
    let v ← evalE C e
    M.ret (.ret v)
  | .brk => M.ret .brk
  | .ite c a b => do
    let v ← evalE C c
    let r ← truth v
    if r then inScope (execS C a) else inScope (execS C b)
  | .switch e b => do
    let v ← evalE C e
    let f ← inScope (execFrom C (if C.hasCase v b then C.isCase v else isDefault) false b)
    match f with
    | .brk => M.ret .next
    | f => M.ret f
  | .case _ => M.ret .next
  | .dflt => M.ret .next
  | .block b => inScope (execSs C b)
  | .loop t x e c s b => inScope (do
    let v ← evalE C e
    addLocal x t v
    iterate (do
        let v ← evalE C c
        truth v)
      (do
        let _ ← evalE C s
        M.ret ())
      (inScope (execS C b)) C.fuel)

def execSs (C : Ctx) : Stmts → M Flow
  | .nil => M.ret .next
  | .cons s ss => do
    let f ← execS C s
    match f with
    | .next => execSs C ss
    | f => M.ret f

/-- The statements from the label that `sel` selects on -/
def execFrom (C : Ctx) (sel : Stmt → Bool) (on : Bool) : Stmts → M Flow
  | .nil => M.ret .next
  | .cons s ss =>
    if on then do
      let f ← execS C s
      match f with
      | .next => execFrom C sel true ss
      | f => M.ret f
    else execFrom C sel (sel s) ss

end

/-! ### functions and objects -/

/-- The result of a function -/
def result : Flow → M Val
  | .next => M.ret .void
  | .ret v => M.ret v
  | .brk => M.fail

def bindParams : List Param → List Val → Option (List (Str × CType × Val))
  | [], [] => some []
  | p :: ps, v :: vs => (bindParams ps vs).map fun l => (p.2, p.1, v) :: l
  | _, _ => none

/-- The first value of a field -/
def initField (C : Ctx) (p : List Str) (f : CType × Str × Option Expr) : M Unit :=
  match f.2.2 with
  | some e => do
    let v ← evalE C e
    setMem (p ++ [f.2.1]) v
  | none =>
    match C.classOf f.1.name with
    | some c => do
      C.make c (p ++ [f.2.1]) []
      setMem (p ++ [f.2.1]) (.obj (p ++ [f.2.1]) c)
    | none =>
      match initial C.lib f.1 with
      | some v => setMem (p ++ [f.2.1]) v
      | none => M.fail

def initFields (C : Ctx) (p : List Str) : List (CType × Str × Option Expr) → M Unit
  | [] => M.ret ()
  | f :: fs => do
    initField C p f
    initFields C p fs

mutual

/-- A call of the function with a full name, for an object if it is a method -/
def callFn (P : Prog) (L : Lib) (fuel : Nat) : Nat → List Str → Option (List Str) → List Val → M Val
  | 0, _, _, _ => M.fail
  | n + 1, q, this, args =>
    match P.fn q with
    | none => M.fail
    | some (ps, b) =>
      match bindParams ps args with
      | none => M.fail
      | some loc =>
        framed loc ((execSs ⟨P, L, q, this, fuel, callFn P L fuel n, makeObj P L fuel n⟩ b).bind result)

/-- A new object of a class: the fields of its base and its own, in order, then the constructor, if there is one -/
def makeObj (P : Prog) (L : Lib) (fuel : Nat) : Nat → List Str → List Str → List Val → M Unit
  | 0, _, _, _ => M.fail
  | n + 1, cls, p, args => do
    let C : List Str → Ctx := fun c => ⟨P, L, c ++ [c!""], some p, fuel, callFn P L fuel n, makeObj P L fuel n⟩
    framed [] (match P.cls cls with
      | some (some b) => initFields (C b) p (P.ownFields b)
      | _ => M.ret ())
    framed [] (initFields (C cls) p (P.ownFields cls))
    let ctor := cls ++ cls.getLast?.toList
    if (P.fn ctor).isSome then do
      let _ ← callFn P L fuel n ctor (some p) args
      M.ret ()
    else if args = [] then M.ret () else M.fail

end

/-- The state in which a program starts -/
def atStart (input : List Str) (events : List Event) : St := ⟨fun _ => none, [], [], input, events⟩

deriving instance DecidableEq for Expr, Suf, Args, Tail
deriving instance DecidableEq for Stmt, Stmts
deriving instance DecidableEq for Item

deriving instance DecidableEq for Fact

/-- A program from its start -/
def runMain (P : Prog) (L : Lib) (fuel depth : Nat) (args : List Val) (input : List Str) (events : List Event) : Res Val :=
  callFn P L fuel depth [c!"main"] none args (atStart input events)

end Cpp

end Spec

end Rtcg
