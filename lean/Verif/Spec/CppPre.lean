import Verif.Spec.CppHarness
import Verif.Spec.CppConvert
import Verif.Spec.CppText

/-
The preprocessor of C++ (the part that generated programs use): files included by name, text kept or left out, and words that stand for other
words.  Files that are not found (those of libraries) are taken to define no words and to contain nothing else that matters here.
-/

namespace Rtcg

namespace Spec

namespace Cpp

open Templates Rtcg.Cpp

/-! ### words that stand for others -/

/-- What words stand for; the latest definition comes first -/
abbrev Macros := List (Str × List Tok)

def Macros.find (M : Macros) (w : Str) : Option (List Tok) := (M.find? (fun m => m.1 = w)).map (·.2)

def Macros.without (M : Macros) (w : Str) : Macros := M.filter (fun m => m.1 ≠ w)

/-- What a token stands for: for a word that is defined, what the tokens of its definition stand for, where the word itself is left alone.
There are no more levels than definitions. -/
def expandTok : Nat → Macros → Tok → List Tok
  | n + 1, M, .word w =>
    match M.find w with
    | some body => body.flatMap (expandTok n (M.without w))
    | none => [.word w]
  | _, _, t => [t]

def expand (M : Macros) (t : Tok) : List Tok := expandTok M.length M t

/-! ### directives -/

/-- What is defined, and for each `#ifndef` that is open, the innermost first: is the text kept? -/
structure Pre where
  macros : Macros
  kept : List Bool

def Pre.keeps (p : Pre) : Bool := p.kept.all id

/-- A directive: what it leaves, and the tokens it gives.  `inc` gives those of an included file. -/
def directive (inc : Pre → Str → Option (Pre × List Tok)) (p : Pre) (d : Str) : Option (Pre × List Tok) :=
  match lex d with
  | .word w :: rest =>
    if w = c!"ifndef" then
      match rest with
      | [.word x] => some (⟨p.macros, (p.macros.find x).isNone :: p.kept⟩, [])
      | _ => none
    else if w = c!"endif" then
      match p.kept with
      | _ :: k => some (⟨p.macros, k⟩, [])
      | [] => none
    else if !p.keeps then some (p, [])
    else if w = c!"define" then
      match rest with
      | .word x :: body => some (⟨(x, body) :: p.macros, p.kept⟩, [])
      | _ => none
    else if w = c!"include" then
      match rest with
      | .str f :: _ => inc p f
      | _ => some (p, [])
    else none
  | _ => none

/-- A token or directive -/
def preOne (inc : Pre → Str → Option (Pre × List Tok)) (p : Pre) : Tok → Option (Pre × List Tok)
  | .dir d => directive inc p d
  | t => some (p, if p.keeps then expand p.macros t else [])

/-- Tokens and directives, one after the other -/
def preAll (inc : Pre → Str → Option (Pre × List Tok)) : Pre → List Tok → Option (Pre × List Tok)
  | p, [] => some (p, [])
  | p, t :: ts => (preOne inc p t).bind fun r => (preAll inc r.1 ts).map fun s => (s.1, r.2 ++ s.2)

/-- A file after preprocessing.  The number limits how deep files include others; `files` finds them. -/
def preFile (files : Str → Option Str) : Nat → Pre → Str → Option (Pre × List Tok)
  | 0, _, _ => none
  | n + 1, p, text => preAll (fun p f =>
      match files f with
      | some text => preFile files n p text
      | none => some (p, [])) p (scan text)

/-- How deep files may include others -/
def includeLimit : Nat := 200

/-- A file after preprocessing: what it has defined, and its tokens -/
def preprocess (files : Str → Option Str) (text : Str) : Option (Macros × List Tok) :=
  (preFile files includeLimit ⟨[], []⟩ text).bind fun r => if r.1.kept = [] then some (r.1.macros, r.2) else none

/-! ### programs -/

/-- A file with all it includes, as a compiler sees it -/
def unit (files : Str → Option Str) (text : Str) : Option (List Item) := (preprocess files text).bind fun r => parse r.2

def isFn : Fact → Bool
  | .fn _ _ _ => true
  | _ => false

/-- Two files compiled and linked: a type that both declare, and declare alike, is one type -/
def link (a b : List Fact) : Prog := a ++ b.filter (fun f => isFn f || !a.contains f)

/-- The program that two files make together, with what they include -/
def linked (files : Str → Option Str) (a b : Str) : Option Prog := do
  let x ← unit files a
  let y ← unit files b
  some (link (facts [] x) (facts [] y))

/-! ### types in place of words -/

/-- A type where words stand for types -/
def substT (τ : Str → Option CType) (t : CType) : CType :=
  match t.name with
  | [w] =>
    match τ w with
    | some s => ⟨t.const, s.name, s.ptr ++ t.ptr⟩
    | none => t
  | _ => t

mutual

def substE (τ : Str → Option CType) : Expr → Expr
  | .name q => .name q
  | .str s => .str s
  | .num w => .num w
  | .bool b => .bool b
  | .post e s => .post (substE τ e) (substS τ s)
  | .un op e => .un op (substE τ e)
  | .shift e t => .shift (substE τ e) (substTl τ t)
  | .eq op a b => .eq op (substE τ a) (substE τ b)
  | .and a b => .and (substE τ a) (substE τ b)
  | .assign a b => .assign (substE τ a) (substE τ b)

def substS (τ : Str → Option CType) : Suf → Suf
  | .nil => .nil
  | .dot f s => .dot f (substS τ s)
  | .arrow f s => .arrow f (substS τ s)
  | .inst t s => .inst (substT τ t) (substS τ s)
  | .call a s => .call (substA τ a) (substS τ s)

def substA (τ : Str → Option CType) : Args → Args
  | .nil => .nil
  | .cons e a => .cons (substE τ e) (substA τ a)

def substTl (τ : Str → Option CType) : Tail → Tail
  | .nil => .nil
  | .cons op e t => .cons op (substE τ e) (substTl τ t)

end

mutual

def substSt (τ : Str → Option CType) : Stmt → Stmt
  | .skip => .skip
  | .expr e => .expr (substE τ e)
  | .decl t x => .decl (substT τ t) x
  | .declEq t x e => .declEq (substT τ t) x (substE τ e)
  | .declBraces t x a => .declBraces (substT τ t) x (substA τ a)
  | .ret => .ret
  | .retVal e => .retVal (substE τ e)
  | .brk => .brk
  | .ite c a b => .ite (substE τ c) (substSt τ a) (substSt τ b)
  | .switch e b => .switch (substE τ e) (substSs τ b)
  | .case e => .case (substE τ e)
  | .dflt => .dflt
  | .block b => .block (substSs τ b)
  | .loop t x e c s b => .loop (substT τ t) x (substE τ e) (substE τ c) (substE τ s) (substSt τ b)

def substSs (τ : Str → Option CType) : Stmts → Stmts
  | .nil => .nil
  | .cons s ss => .cons (substSt τ s) (substSs τ ss)

end

/-- An item where words stand for types -/
def substItem (τ : Str → Option CType) : Item → Item
  | .fn t q ps b => .fn (t.map (substT τ)) q (ps.map fun p => (substT τ p.1, p.2)) (b.map (substSs τ))
  | .var t x e => .var (substT τ t) x (e.map (substE τ))
  | i => i

/-- The name of a function of a library: after the name of a method, a word that stands for a type is the name of the type -/
def substQ (τ : Str → Option CType) : List Str → List Str
  | [f, w] =>
    match τ w with
    | some s => if f.head? = some '.' then f :: s.name else [f, w]
    | none => [f, w]
  | q => q

def Effect.subst (τ : Str → Option CType) : Effect → Effect
  | .call q args => .call (substQ τ q) args
  | .out vs => .out vs

/-- A state, with types in place of words -/
def St.subst (τ : Str → Option CType) (st : St) : St :=
  { st with loc := st.loc.map (fun l => (l.1, substT τ l.2.1, l.2.2)), eff := st.eff.map (Effect.subst τ) }

/-- A library in which words can be used for types -/
def Lib.named (L : Lib) (τ : Str → Option CType) : Lib :=
  { L with
    takes := fun q n => L.takes (substQ τ q) n
    val := fun q args => L.val (substQ τ q) args }

/-! ### the types of channels -/

/-- A text is (only) a type without `const` -/
def Spells (text : Str) (t : CType) : Prop := type (lex text) = some (t, []) ∧ t.const = false

/-- The words that generated files define, where these are the channels -/
def Defined (U : Unicode) (chans : Str → Prop) (w : Str) : Prop :=
  w = c!"RTCG_H_DEFINED" ∨ w = c!"CONVERT_H_DEFINED" ∨ ∃ ch, chans ch ∧ (w = channelValueType U ch ∨ w = channelMsgType U ch)

/-- The type of the messages of a channel, given the one of its values -/
def msgOf (v : Variant) (t : CType) : CType := if v = Variant.ros then ⟨t.const, t.name ++ [c!"ConstPtr"], [c!"&"]⟩ else t

/-- The types that words stand for, given the ones of the values of channels: for each channel there are two words, for its values and its
messages, and no other word stands for a type -/
structure WordTypes (U : Unicode) (v : Variant) (chans : Str → Prop) (T : Str → CType) (τ : Str → Option CType) : Prop where
  value : ∀ ch, chans ch → τ (channelValueType U ch) = some (T ch)
  msg : ∀ ch, chans ch → τ (channelMsgType U ch) = some (msgOf v (T ch))
  other : ∀ w s, τ w = some s → ∃ ch, chans ch ∧ (w = channelValueType U ch ∨ w = channelMsgType U ch)

/-- The types of the values of channels are these, and can be written where C++ needs them -/
structure ValueTypes (U : Unicode) (v : Variant) (ctx : CppConfig.Context) (T : Str → CType) : Prop where
  spells : ∀ e ∈ ctx.channelTypes, Spells (CppText.valueType v e.2) (T e.1)
  undefined : ∀ e ∈ ctx.channelTypes, ∀ w, .word w ∈ lex (CppText.valueType v e.2) → ¬ Defined U (· ∈ ctx.channelTypes.map (·.1)) w
  /-- messages of ROS are of classes -/
  classes : v = Variant.ros → ∀ e ∈ ctx.channelTypes, (T e.1).ptr = [] ∧ ∀ w ∈ (T e.1).name, isIdent w = true

/-- The type of the values of a channel that no type is configured for -/
def defaultType (v : Variant) (t : RsType) : CType := if v = Variant.ros then ⟨false, [c!"std_msgs", c!"String"], []⟩ else cppType t

/-- The types of the values of channels, given their types in RoboChart: those that are configured (of which it is known how they are spelled),
or else the default ones.  Configured types do not use words that the generated files define, and for ROS they are names of classes. -/
structure ChannelTypes (U : Unicode) (c : CppConfig.Config) (chans : Str → Prop) (base : Str → RsType → Prop) (T : Str → CType) : Prop where
  default : ∀ ch t, chans ch → base ch t → ¬ Overridden c ch → T ch = defaultType c.variant t
  spells : ∀ ch ty, chans ch → configuredType c ch = some ty → ty ≠ [] → Spells ty (T ch)
  undefined : ∀ ch ty, chans ch → configuredType c ch = some ty → ty ≠ [] → ∀ w, .word w ∈ lex ty → ¬ Defined U chans w
  classes : c.variant = Variant.ros → ∀ ch, chans ch → Overridden c ch → (T ch).ptr = [] ∧ ∀ w ∈ (T ch).name, isIdent w = true

/-- Files are found where the generated ones are; those of libraries are not found -/
structure FilesFor (files : Str → Option Str) (conv : Str) (ctx : CppConfig.Context) : Prop where
  rtcg : files c!"rtcg.h" = some TemplateFiles.rtcgH
  convert : files c!"convert.h" = some conv
  ros : ∀ f ∈ [c!"ros/ros.h", c!"std_msgs/Bool.h", c!"std_msgs/String.h"], files f = none
  includes : ∀ i ∈ ctx.includes, i.isSystem = false → Plain i.src ∧ files i.src = none

/-- The files that are found: convert.h and rtcg.h -/
def found (conv h f : Str) : Option Str := if f = c!"convert.h" then some conv else if f = c!"rtcg.h" then some h else none

/-- What the configuration includes from the same place is not called like the files that are found there. -/
def GoodIncludes (c : CppConfig.Config) : Prop :=
  ∀ i ∈ c.includes, i.isSystem = false → Plain i.src ∧ i.src ≠ c!"convert.h" ∧ i.src ≠ c!"rtcg.h"

/-! ### programs with types in place of words -/

/-- Whatever one program does with libraries in which words stand for types, the other does with the same libraries and the types themselves. -/
def Renamed (τ : Str → Option CType) (P P' : Prog) : Prop :=
  ∀ (L : Lib) (fuel depth : Nat) (args : List Val) (input : List Str) (events : List Event),
    (∀ x st, runMain P (L.named τ) fuel depth args input events = .ok x st → runMain P' L fuel depth args input events = .ok x (st.subst τ)) ∧
    ∀ st, runMain P (L.named τ) fuel depth args input events = .wait st → runMain P' L fuel depth args input events = .wait (st.subst τ)

/-! ### ROS -/

/-- What the libraries declare for a ROS program that uses these channels: streams, the conversions, the parts of ROS, and `advertise` for the
types of the channels, which returns publishers -/
structure RosLib (L : Lib) (U : Unicode) (T : Str → CType) (chans : Str → Prop) : Prop where
  std : ∀ x ∈ [c!"cerr", c!"cout", c!"endl"], L.known [c!"std", x] = true
  convert : ∀ ch, chans ch → L.takes [convertTo U ch] 1 = true ∧ L.takes [convertFrom U ch] 1 = true
  classes : ∀ x ∈ [c!"NodeHandle", c!"Publisher"], L.known [c!"ros", x] = true
  functions : ∀ f ∈ rosFunctions, L.takes f.1 f.2 = true
  advertise : ∀ ch, chans ch → L.takes (c!".advertise" :: (T ch).name) 3 = true ∧ ∀ args, ∃ h, L.val (c!".advertise" :: (T ch).name) args = .lib h

/-- Publishing a value: what the conversion gives, by what `advertise` gave for the type, the topic and the length of the queue -/
def rosSend (L : Lib) (U : Unicode) (T : Str → CType) (x : Channel × Value) : Effect :=
  .call [c!".publish"] [L.val (c!".advertise" :: (T x.1.name).name) [.lib (L.make [c!"ros", c!"NodeHandle"]), .str (topicName U x.1), .int 1000],
    L.val [convertTo U x.1.name] [valueVal x.2]]

end Cpp

end Spec

end Rtcg
