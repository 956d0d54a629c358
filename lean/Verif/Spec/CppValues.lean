import Verif.Spec.CppTypes

/-
What conversions do: the values of C++ that functions of convert.h work with, and what the functions return.  As in Spec/CppTypes, this is the
part of C++ that these functions use.  Numbers are unbounded.
-/

namespace Rtcg

namespace Spec

namespace Cpp

/-- What conversions work with: strings, characters that a pointer leads to (they end before the first zero), numbers, messages of ROS with a text
in them, and pointers to such messages -/
inductive Datum where
  | text (s : Str)
  | chars (s : Str)
  | number (i : Int)
  | msg (data : Str)
  | toMsg (data : Str)
  deriving DecidableEq

namespace Datum

/-- Characters end before the first zero -/
def untilZero (s : Str) : Str := s.takeWhile (· ≠ '\x00')

/-- What is declared without a value -/
def fresh (t : CType) : Option Datum :=
  if t.ptr = [] ∧ t.name = [c!"std_msgs", c!"String"] then some (.msg [])
  else if t.ptr = [] ∧ t.name = [c!"std", c!"string"] then some (.text [])
  else none

/-- Members and methods -/
def follow : Datum → Suf → Option Datum
  | d, .nil => some d
  | .text s, .dot f (.call .nil r) => if f = c!"c_str" then follow (.chars (untilZero s)) r else none
  | .msg s, .dot f r => if f = c!"data" then follow (.text s) r else none
  | .toMsg s, .arrow f r => if f = c!"data" then follow (.text s) r else none
  | _, _ => none

/-- What is returned or assigned as something of a type: characters become strings -/
def as (t : CType) : Datum → Datum
  | .chars s => if t.name = [c!"std", c!"string"] ∧ t.ptr = [] then .text s else .chars s
  | d => d

def value (env : List (Str × Datum)) : Expr → Option Datum
  | .name [x] => GoMap.get? env x
  | .post (.name [x]) s => (GoMap.get? env x).bind (follow · s)
  | .post (.name q) (.call (.cons e .nil) .nil) => if q = [c!"std", c!"string"] then (value env e).map (as (stringType false)) else none
  | _ => none

/-- What an assignment leaves -/
def assign (env : List (Str × Datum)) (a : Expr) (d : Datum) : Option (List (Str × Datum)) :=
  match a with
  | .post (.name [x]) (.dot f .nil) =>
    match GoMap.get? env x, as (stringType false) d with
    | some (.msg _), .text s => if f = c!"data" then some (GoMap.set env x (.msg s)) else none
    | _, _ => none
  | _ => none

/-- What statements return -/
def body : List (Str × Datum) → Stmts → Option Datum
  | env, .cons (.decl t x) ss => (fresh t).bind fun d => body ((x, d) :: env) ss
  | env, .cons (.expr (.assign a b)) ss => ((value env b).bind (assign env a)).bind (body · ss)
  | env, .cons (.retVal e) _ => value env e
  | _, _ => none

end Datum

/-- What a function of one parameter returns -/
def Item.apply : Item → Datum → Option Datum
  | .fn (some t) _ [(_, x)] (some b), d => (Datum.body [(x, d)] b).map (Datum.as t)
  | _, _ => none

/-- The names of a function -/
def Item.called : Item → Str → Prop
  | .fn _ q _ _, f => q = [f]
  | _, _ => False

/-- How a message that was sent is received: in ROS, by a pointer -/
def received (v : Variant) : Datum → Datum
  | .msg s => if v = .ros then .toMsg s else .msg s
  | d => d

/-- What default conversions keep of a value: in ROS, texts end before their first zero -/
def kept (v : Variant) : Datum → Datum
  | .text s => if v = .ros then .text (Datum.untilZero s) else .text s
  | d => d

/-- A value of C++ that a channel of a type carries -/
def Datum.OfType (t : RsType) : Datum → Prop
  | .text _ => t.kind = .enum
  | .number _ => t.kind = .arithmos
  | _ => False

/-- A value of C++ of the kind of a value of the test language -/
def Datum.Like (v : Value) : Datum → Prop
  | .text _ => ∃ w, v = .enum w
  | .number _ => ∃ i, v = .int i
  | _ => False

end Cpp

end Spec

end Rtcg
