import Verif.Model.Stm

/-
Names and configuration of the generator: internal/strmanip, internal/gen/cpp/func.go, internal/gen/config/{catkin,cpp}.
-/

namespace Rtcg

/-! ### Unicode -/

/-- The functions of Go's `unicode` package used by the generator.  Only what they do on ASCII is fixed (`AsciiOK`); theorems
hold for every choice of the rest. (strmanip/strmanip.go:16, 42, 65, 68.) -/
structure Unicode where
  toUpper : Char → Char
  toLower : Char → Char
  isUpper : Char → Bool
  isLower : Char → Bool

namespace Unicode

/-- The documented behaviour on ASCII. (For strmanip/strmanip.go:16, 42, 65, 68.) -/
structure AsciiOK (U : Unicode) : Prop where
  isUpper : ∀ c : Char, c.toNat < 128 → U.isUpper c = (65 ≤ c.toNat && c.toNat ≤ 90)
  isLower : ∀ c : Char, c.toNat < 128 → U.isLower c = (97 ≤ c.toNat && c.toNat ≤ 122)
  toUpper : ∀ c : Char, c.toNat < 128 → U.toUpper c = if 97 ≤ c.toNat ∧ c.toNat ≤ 122 then Char.ofNat (c.toNat - 32) else c
  toLower : ∀ c : Char, c.toNat < 128 → U.toLower c = if 65 ≤ c.toNat ∧ c.toNat ≤ 90 then Char.ofNat (c.toNat + 32) else c

/-- `strings.ToUpper`: every character is mapped. (Called at gen/cpp/func.go:85 and gen/templating/func.go:13.) -/
def strToUpper (U : Unicode) (s : Str) : Str := s.map U.toUpper

end Unicode

/-! ### strmanip -/

namespace Strmanip

/-- UpcaseFirst, strmanip/strmanip.go:10-23: the loop over the characters with their positions -/
def upcaseFirst (U : Unicode) (ident : Str) : Str :=
  (ident.zipIdx.foldl (fun build (ci : Char × Nat) => build ++ [if ci.2 = 0 then U.toUpper ci.1 else ci.1]) [])

/-- formatter, strmanip.go:33-37.  Simplification: the one mode there is (72-76) is left out. -/
structure Formatter where
  sb : Str
  lastLower : Bool

/-- addChar, strmanip.go:62-70 -/
def Formatter.addChar (U : Unicode) (s : Formatter) (char : Char) : Formatter :=
  { lastLower := U.isLower char, sb := s.sb ++ [U.toLower char] }

/-- markSplit, strmanip.go:56-60 -/
def Formatter.markSplit (s : Formatter) : Formatter := { s with sb := s.sb ++ ['_'] }

/-- One iteration of format, strmanip.go:40-51 -/
def Formatter.step (U : Unicode) (s : Formatter) (char : Char) : Formatter :=
  if U.isUpper char && s.lastLower then s.markSplit.addChar U char
  else if char = '_' then { s.markSplit with lastLower := false }
  else s.addChar U char

/-- ToLowerUnderscored, strmanip.go:26-31, 39-54 -/
def toLowerUnderscored (U : Unicode) (ident : Str) : Str :=
  (ident.foldl (Formatter.step U) { sb := [], lastLower := false }).sb

end Strmanip

/-! ### C++ names -/

namespace Cpp

open Strmanip

/-- CallbackName, gen/cpp/func.go:33-35 -/
def callbackName (cha : Str) : Str := cha ++ c!"Callback"

/-- ChannelMsgType, gen/cpp/func.go:39-41 -/
def channelMsgType (U : Unicode) (cha : Str) : Str := upcaseFirst U cha ++ c!"Msg"

/-- ChannelValueType, gen/cpp/func.go:45-47 -/
def channelValueType (U : Unicode) (cha : Str) : Str := upcaseFirst U cha ++ c!"Val"

/-- convert, gen/cpp/func.go:59-61 -/
def convert (U : Unicode) (dir cha : Str) : Str := dir ++ upcaseFirst U cha

/-- ConvertTo, gen/cpp/func.go:50-52 -/
def convertTo (U : Unicode) (cha : Str) : Str := convert U c!"to" cha

/-- ConvertFrom, gen/cpp/func.go:55-57 -/
def convertFrom (U : Unicode) (cha : Str) : Str := convert U c!"from" cha

/-- StateEntry, gen/cpp/func.go:64-66 -/
def stateEntry (U : Unicode) (id : Str) : Str := c!"enter" ++ upcaseFirst U id

/-- EnumField, gen/cpp/func.go:84-86, on a string (`fmt.Sprint` of a string is the string) -/
def enumField (U : Unicode) (variant : Str) : Str := U.strToUpper variant

/-- localEnumName, gen/cpp/func.go:120-122 -/
def localEnumName (U : Unicode) (name variant : Str) : Str := name ++ c!"::" ++ enumField U variant

/-- rtcgEnumName, gen/cpp/func.go:116-118 -/
def rtcgEnumName (U : Unicode) (name variant : Str) : Str := c!"rtcg::" ++ localEnumName U name variant

/-- StateEnum, gen/cpp/func.go:74-76 -/
def stateEnum (U : Unicode) (id : Str) : Str := localEnumName U c!"State" id

/-- TestEnum, gen/cpp/func.go:79-81 -/
def testEnum (U : Unicode) (name : Str) : Str := localEnumName U c!"Test" name

/-- OutcomeEnum, gen/cpp/func.go:69-71; `fmt.Sprint` uses the String method -/
def outcomeEnum (U : Unicode) (o : Outcome) : Str := rtcgEnumName U c!"Outcome" o.string

/-- StdType, gen/cpp/func.go:89-102 -/
def stdType (t : RsType) : Str :=
  if t.isEnum then c!"std::string"
  else if t.isNat then c!"unsigned int"
  else if t.isInt then c!"int"
  else if t.isReal then c!"double"
  else c!"void *"

/-- Value, gen/cpp/func.go:105-114 -/
def value (v : Value) : Str :=
  if v.type.isEnum then c!"\"" ++ v.stringValue ++ c!"\"" else v.stringValue

end Cpp

/-! ### strings.ReplaceAll -/

/-- `strings.ReplaceAll(s, old, new)` for a non-empty `old`: leftmost non-overlapping occurrences. `skip` characters still
belong to the last occurrence found. (For gen/config/catkin/package.go:80.) -/
def replaceAllFrom (old new : Str) : Nat → Str → Str
  | _, [] => []
  | skip + 1, _ :: cs => replaceAllFrom old new skip cs
  | 0, c :: cs =>
    if old.isPrefixOf (c :: cs) then new ++ replaceAllFrom old new (old.length - 1) cs
    else c :: replaceAllFrom old new 0 cs

/-- strings.ReplaceAll, called at gen/config/catkin/package.go:80 -/
def replaceAll (s old new : Str) : Str := replaceAllFrom old new 0 s

/-! ### Catkin packages -/

namespace Catkin

/-- Maintainer, gen/config/catkin/package.go:26-29 -/
structure Maintainer where
  email : Str
  name : Str
  deriving DecidableEq, Repr

/-- Package, package.go:11-23 (XMLName, which is constant, left out) -/
structure Package where
  format : Int
  name : Str
  version : Str
  description : Str
  maintainer : Maintainer
  license : Str
  buildtoolDepends : List Str
  depends : List Str
  deriving DecidableEq, Repr

/-- The zero value. (Of gen/config/catkin/package.go:11-23.) -/
def Package.zero : Package := ⟨0, [], [], [], ⟨[], []⟩, [], [], []⟩

/-- autofillOne, package.go:62-68 -/
def autofillOne (input dflt : Str) : Str := if input = [] then dflt else input

/-- Autofill, package.go:50-60 -/
def Package.autofill (p : Package) : Package :=
  { p with
    format := 2
    name := autofillOne p.name c!"${NAME}"
    description := autofillOne p.description c!"Package for ${NAME}"
    maintainer :=
      { name := autofillOne p.maintainer.name c!"${NAME} Maintainers"
        email := autofillOne p.maintainer.email c!"email@example.com" }
    license := autofillOne p.license c!"Proprietary"
    version := autofillOne p.version c!"0.1.0" }

/-- expandOne, package.go:79-81 -/
def expandOne (template name : Str) : Str := replaceAll template c!"${NAME}" name

/-- Expand, package.go:71-77 -/
def Package.expand (p : Package) (name : Str) : Package :=
  { p with
    name := expandOne p.name name
    description := expandOne p.description name
    maintainer := { name := expandOne p.maintainer.name name, email := expandOne p.maintainer.email name }
    license := expandOne p.license name }

/-- The package the generator works with: New, gen/catkin/catkin.go:34-39 (`pkg` is the configured package, if any) -/
def configured (pkg : Option Package) : Package := (pkg.getD Package.zero).autofill

/-- The package written for a test: generateTest, gen/catkin/catkin.go:84-85 -/
def forTest (pkg : Option Package) (test : Str) : Package := (configured pkg).expand test

end Catkin

/-! ### C++ configuration -/

namespace CppConfig

/-- Include, gen/config/cpp/cpp.go:56-59 -/
structure Include where
  src : Str
  isSystem : Bool
  deriving DecidableEq, Repr

/-- Channel, gen/config/cpp/cpp.go:66-69 -/
structure Channel where
  name : Str
  type : Str
  deriving DecidableEq, Repr

/-- Config, gen/config/cpp/cpp.go:10-17.  The Makefile configuration has no content (config/makefile/makefile.go), so only its
presence is kept. -/
structure Config where
  variant : Variant
  includes : List Include
  channels : List Channel
  makefile : Bool
  catkin : Option (Option Catkin.Package)
  deriving DecidableEq, Repr

/-- ChannelMap, gen/config/cpp/cpp.go:45-53 -/
def Config.channelMap (c : Config) : GoMap Str Str :=
  c.channels.foldl (fun cmap over => GoMap.set cmap over.name over.type) []

/-- ChannelType, gen/config/cpp/context.go:42-45 -/
structure ChannelType where
  base : Option RsType
  override : Str
  deriving DecidableEq, Repr

/-- HasOverride, gen/config/cpp/context.go:48-50 -/
def ChannelType.hasOverride (t : ChannelType) : Bool := t.override ≠ []

/-- Context, gen/config/cpp/context.go:11-15 -/
structure Context where
  includes : List Include
  channelTypes : GoMap Str ChannelType
  hasConversion : Bool
  deriving DecidableEq, Repr

/-- One iteration of Process, gen/config/cpp/context.go:28-36 -/
def processStep (overrides : GoMap Str Str) (ctx : Context) (nt : Str × Option RsType) : Context :=
  let override := GoMap.get? overrides nt.1
  { ctx with
    hasConversion := if override.isSome then true else ctx.hasConversion
    channelTypes := GoMap.set ctx.channelTypes nt.1 ⟨nt.2, override.getD []⟩ }

/-- Process, gen/config/cpp/context.go:19-39, in the iteration order of the type map -/
def Config.process (c : Config) (types : TypeMap) : Context :=
  types.foldl (processStep c.channelMap) ⟨c.includes, [], false⟩

end CppConfig

end Rtcg
