import Verif.Spec.CppPre

/-
What the compiler of C++ demands of the types in conversions: of the functions in convert.h.  The part of C++'s rules that is needed for
functions that declare objects, assign to their members, and return the values of names, members, and methods and constructors of strings.
-/

namespace Rtcg

namespace Spec

namespace Cpp

/-- A C++ type that is a number -/
def isNumber (t : CType) : Bool := t.ptr = [] && t.name ∈ [[c!"int"], [c!"unsigned int"], [c!"double"]]

def stringType (const : Bool) : CType := ⟨const, [c!"std", c!"string"], []⟩

/-- `const char *` -/
def charsType : CType := ⟨true, [c!"char"], [c!"*"]⟩

/-- Can something of a type be returned or assigned as something of another type?  It can if it is copied (pointers only if this does not lose
`const`), if both are numbers, and characters can become a string. -/
def fits (a b : CType) : Bool :=
  (a.name = b.name && a.ptr = b.ptr && (a.ptr = [] || !a.const || b.const)) || (isNumber a && isNumber b) ||
    (a = charsType && b.name = [c!"std", c!"string"] && b.ptr = [])

/-- Members: the text of a message of ROS -/
def memberType (t : CType) (f : Str) : Option CType :=
  if t.name = [c!"std_msgs", c!"String"] ∧ t.ptr = [] ∧ f = c!"data" then some (stringType t.const) else none

/-- What a (reference to a) pointer to a message of ROS points to -/
def pointee (t : CType) : Option CType :=
  if t.name.getLast? = some c!"ConstPtr" ∧ (t.ptr = [] ∨ t.ptr = [c!"&"]) then some ⟨true, t.name.dropLast, []⟩ else none

/-- Methods: the characters of a string -/
def methodType (t : CType) (f : Str) : Option CType :=
  if t.name = [c!"std", c!"string"] ∧ t.ptr = [] ∧ f = c!"c_str" then some charsType else none

/-- The type of what follows something of a type (members and methods) -/
def sufType : CType → Suf → Option CType
  | t, .nil => some t
  | t, .dot f (.call .nil s) => (methodType t f).bind (sufType · s)
  | t, .dot f s => (memberType t f).bind (sufType · s)
  | t, .arrow f s => ((pointee t).bind (memberType · f)).bind (sufType · s)
  | _, _ => none

/-- The type of an expression, given those of names.  Strings can be made of characters. -/
def exprType (Γ : List (Str × CType)) : Expr → Option CType
  | .name [x] => GoMap.get? Γ x
  | .post (.name [x]) s => (GoMap.get? Γ x).bind (sufType · s)
  | .post (.name q) (.call (.cons e .nil) .nil) =>
    if q = [c!"std", c!"string"] ∧ (exprType Γ e).any (fits · (stringType false)) then some (stringType false) else none
  | _ => none

/-- Are the types of a function right, given the types of names, and what it should return? -/
def stmtsTyped (r : CType) : List (Str × CType) → Stmts → Bool
  | _, .nil => true
  | Γ, .cons (.decl t x) ss => stmtsTyped r ((x, t) :: Γ) ss
  | Γ, .cons (.expr (.assign a b)) ss =>
    (exprType Γ a).any (fun ta => !ta.const && (exprType Γ b).any (fits · ta)) && stmtsTyped r Γ ss
  | Γ, .cons (.retVal e) ss => (exprType Γ e).any (fits · r) && stmtsTyped r Γ ss
  | _, _ => false

/-- Are the types in (the body of) a function right? -/
def functionTyped : Item → Bool
  | .fn (some t) _ ps (some b) => stmtsTyped t (ps.map (fun p => (p.2, p.1))) b
  | .fn (some _) _ _ none => true
  | _ => false

/-- The conversions that rtcg has by default are right for these types: for the variant animate, all that C++ has a type for, and for ROS only
constants, which are sent as texts. -/
def Convertible (v : Variant) (t : RsType) : Prop :=
  t.kind = .enum ∨ (v = .animate ∧ t.kind = .arithmos ∧ t.domain ∈ [Domain.nat, .int, .real])

/-- Values whose channels the default conversions are right for: texts, and in the variant animate numbers; not the absent value. -/
def ConvertsByDefault (v : Variant) : Value → Prop
  | .enum _ => True
  | .int _ => v = .animate
  | .none => False

end Cpp

end Spec

end Rtcg
