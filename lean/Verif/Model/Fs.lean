import Verif.Model.Gen

/-
Paths (path/filepath on Unix), the file system, and the generator driving it (internal/gen, cmd/rtcg-gen).
-/

namespace Rtcg

/-! ### path/filepath -/

/-- The parts of a path between slashes. (For gen/gencommon/dirset.go:12-22.) -/
def splitSlash : Str → List Str
  | [] => [[]]
  | c :: cs =>
    if c = '/' then [] :: splitSlash cs
    else match splitSlash cs with
      | [] => [[c]]   -- not reached
      | s :: ss => (c :: s) :: ss

/-- A path in normal form: absolute or not, and its components, `..` only at the start of a relative path. (For gen/gencommon/dirset.go:12-22.) -/
structure NPath where
  rooted : Bool
  comps : List Str
  deriving DecidableEq, Repr

/-- What `filepath.Clean` does with one component. (For cmd/rtcg-gen/main.go:68-70.) -/
def cleanStep (rooted : Bool) (out : List Str) (c : Str) : List Str :=
  if c = [] ∨ c = c!"." then out
  else if c = c!".." then
    match out.getLast? with
    | none => if rooted then out else [c!".."]
    | some l => if l = c!".." then out ++ [c!".."] else out.dropLast
  else out ++ [c]

/-- Is the path absolute?. (For cmd/rtcg-gen/main.go:68-70.) -/
def isRooted (p : Str) : Bool := p.head? = some '/'

/-- The normal form of a path. (For cmd/rtcg-gen/main.go:68-70.) -/
def normPath (p : Str) : NPath := ⟨isRooted p, (splitSlash p).foldl (cleanStep (isRooted p)) []⟩

/-- The text of a normal form. (For cmd/rtcg-gen/main.go:68-70.) -/
def NPath.render (n : NPath) : Str :=
  if n.rooted then '/' :: List.intercalate c!"/" n.comps
  else if n.comps = [] then c!"." else List.intercalate c!"/" n.comps

/-- `filepath.Clean` on Unix, by its documented rules. (Called at cmd/rtcg-gen/main.go:68-70.) -/
def cleanPath (p : Str) : Str := (normPath p).render

/-- `filepath.Join` on Unix. (Called at gen/gencommon/dirset.go:14-21, gen/templating/set.go:26, gen/cpp/copy.go:46-51.) -/
def joinPath (elems : List Str) : Str :=
  match elems.filter (· ≠ []) with
  | [] => []
  | es => cleanPath (List.intercalate c!"/" es)

/-! ### the file system -/

/-- What a generated file holds: which template, or which source, with which data.  The text that comes of it
is in Model/TemplateData.lean (`Tmpl.render`) and Model/Programs.lean (`TextLayer.text`).
(Written by gen/templating/templating.go:12-21, gen/cpp/copy.go:49-75, gen/catkin/catkin.go:98-107.) -/
inductive Content where
  /-- truncated or freshly created -/
  | empty
  /-- a file that was there before -/
  | user (text : Str)
  /-- an embedded prelude file, gen/cpp/copy.go:40-47 -/
  | prelude (name : Str)
  /-- convert.h from the C++ context, gen/cpp/cpp.go:102 -/
  | convertH (variant : Variant) (ctx : CppConfig.Context)
  /-- main.cpp of a test, gen/cpp/cpp.go:130-138, gen/cpp/context.go:20-27 (the date left out) -/
  | mainCpp (variant : Variant) (name : Str) (machine : Stm) (transitions : TransitionContext) (ctx : CppConfig.Context)
  /-- package.xml, gen/catkin/catkin.go:98-107 -/
  | packageXml (pkg : Catkin.Package)
  /-- CMakeLists.txt, gen/catkin/catkin.go:91 -/
  | cmake (pkg : Catkin.Package)
  /-- Makefile, gen/makefile/makefile.go:50-62 -/
  | makefile (tests : List Str) (ctx : CppConfig.Context)
  deriving DecidableEq, Repr

/-- Absolute location: components from the root. (E.g. the paths of gen/gen.go:152.) -/
abbrev Loc := List Str

/-- The file system.  Simplification: no links, permissions or special files, and every location is reachable by its components
alone. (What gen/gen.go:152, gen/templating/templating.go:13 and cmd/rtcg-gen/main.go:93 change.) -/
structure Fs where
  isDir : Loc → Bool
  file : Loc → Option Content

/-- Where a path leads, from the working directory `cwd`. (E.g. the path of gen/gen.go:152.) -/
def locate (cwd : Loc) (p : Str) : Loc :=
  if (normPath p).rooted then (normPath p).comps else (normPath p).comps.foldl (cleanStep true) cwd

namespace Fs

/-- `os.MkdirAll`: fails when a file is in the way; otherwise all directories down to the location exist. (Called at gen/gen.go:152.) -/
def mkdirAll (fs : Fs) (l : Loc) : Res Fs :=
  if (List.range (l.length + 1)).any (fun k => (fs.file (l.take k)).isSome) then throwErr .os
  else .ok { fs with isDir := fun a => fs.isDir a || decide (a <+: l) }

/-- Store a file's content. (For gen/templating/templating.go:18.) -/
def put (fs : Fs) (l : Loc) (c : Content) : Fs := { fs with file := fun a => if a = l then some c else fs.file a }

/-- `os.Create`: the parent must be a directory and the location itself not; an existing file is truncated.
(Called at gen/templating/templating.go:13, gen/cpp/copy.go:62, gen/catkin/catkin.go:99.) -/
def create (fs : Fs) (l : Loc) : Res Fs :=
  if l = [] || fs.isDir l || !fs.isDir l.dropLast then throwErr .os
  else .ok (fs.put l .empty)

/-- CreateFile, gen/templating/templating.go:12-21, and the like: create, then write.  Simplification: writing does not fail. -/
def write (fs : Fs) (l : Loc) (c : Content) : Res Fs :=
  match fs.create l with
  | .error e => .error e
  | .ok fs => .ok (fs.put l c)

/-- copyLocalFile and writeFile, gen/cpp/copy.go:49-74: open the source, create (truncate) the destination, copy what the
source holds then. -/
def copy (fs : Fs) (src dst : Loc) : Res Fs :=
  match fs.file src with
  | none => throwErr .os
  | some _ =>
    match fs.create dst with
    | .error e => .error e
    | .ok fs => .ok (fs.put dst ((fs.file src).getD .empty))

/-- Remove everything inside a location, and the location itself unless `keep`. (For cmd/rtcg-gen/main.go:93.) -/
def removeTree (fs : Fs) (l : Loc) (keep : Bool) : Fs :=
  { isDir := fun a => fs.isDir a && !(decide (l <+: a) && !(keep && decide (a = l)))
    file := fun a => if l <+: a then none else fs.file a }

/-- `os.RemoveAll` of a cleaned path other than `.`: removes everything inside.  The last step, removing the directory itself,
fails when the path is the root or ends in `..` (Linux rmdir: EBUSY, ENOTEMPTY).  Simplification: no other failures. (Called at cmd/rtcg-gen/main.go:93.) -/
def removeAll (fs : Fs) (cwd : Loc) (p : Str) : Fs × Res Unit :=
  if (normPath p).comps = [] ∨ (normPath p).comps.getLast? = some c!".." then
    (fs.removeTree (locate cwd p) true, throwErr .os)
  else (fs.removeTree (locate cwd p) false, .ok ())

end Fs

/-! ### generators -/

/-- gencommon.DirSet, gen/gencommon/dirset.go:6-9 -/
structure DirSet where
  input : Str
  output : Str
  deriving DecidableEq, Repr

/-- Subdir, dirset.go:12-17 -/
def DirSet.subdir (d : DirSet) (s : Str) : DirSet := ⟨joinPath [d.input, s], joinPath [d.output, s]⟩

/-- OutputPath, dirset.go:20-22 -/
def DirSet.outputPath (d : DirSet) (f : Str) : Str := joinPath [d.output, f]

/-- The file system operations of the generators. (gen/gen.go:152, gen/templating/templating.go:13-20, gen/cpp/copy.go:49-75.) -/
inductive Op where
  | mkdir (path : Str)
  | write (path : Str) (content : Content)
  | copy (src dst : Str)
  deriving DecidableEq, Repr

namespace CppGen

/-- (*OnSuite).testDirs, gen/cpp/cpp.go:75-83 -/
def testDirs (src : DirSet) (name : Str) : List Str :=
  let dirSet := src.subdir name
  [dirSet.outputPath c!"include", dirSet.outputPath c!"src"]

/-- (*OnSuite).Dirs, gen/cpp/cpp.go:60-73; `src` is the source directory set (29) -/
def dirs (src : DirSet) (ctx : CppConfig.Context) (suite : StmSuite) : List Str :=
  src.outputPath c!"rtcg" :: (if ctx.hasConversion then [src.outputPath c!"convert"] else []) ++
    suite.tests.flatMap (fun nt => testDirs src nt.1)

/-- copyPrelude, gen/cpp/copy.go:25-47, with the two files under gen/cpp/embed/prelude -/
def copyPrelude (src : DirSet) : List Op :=
  [c!"rtcg.cpp", c!"rtcg.h"].map fun name => .write (src.outputPath (joinPath [c!"rtcg", name])) (.prelude name)

/-- generateCommon and copyConvertFile, gen/cpp/cpp.go:97-116; the file list is in gen/cpp/template.go:28-30, the path in
gen/templating/set.go:26 -/
def generateCommon (src : DirSet) (v : Variant) (ctx : CppConfig.Context) : List Op :=
  (if ctx.hasConversion then
    [.copy (joinPath [(src.subdir c!"convert").input, c!"convert.cpp"]) (joinPath [(src.subdir c!"convert").output, c!"convert.cpp"])]
    else []) ++
  [.write (joinPath [src.output, c!"convert", c!"convert.h"]) (.convertH v ctx)]

/-- generateTestSpecific and generateTest, gen/cpp/cpp.go:118-138; the file list is in gen/cpp/template.go:32-34 -/
def generateTests (src : DirSet) (v : Variant) (ctx : CppConfig.Context) (suite : StmSuite) : List Op :=
  suite.tests.map fun nt =>
    .write (joinPath [(src.subdir nt.1).output, c!"src", c!"main.cpp"]) (.mainCpp v nt.1 nt.2 (TransitionContext.make nt.2) ctx)

/-- (*OnSuite).Generate, gen/cpp/cpp.go:85-95 -/
def generate (src : DirSet) (v : Variant) (ctx : CppConfig.Context) (suite : StmSuite) : List Op :=
  copyPrelude src ++ generateCommon src v ctx ++ generateTests src v ctx suite

end CppGen

namespace CatkinGen

/-- (*OnSuite).Generate and generateTest, gen/catkin/catkin.go:70-107; the CMake file is in gen/catkin/template.go -/
def generate (src : DirSet) (pkg : Option Catkin.Package) (suite : StmSuite) : List Op :=
  suite.tests.flatMap fun nt =>
    let out := (src.subdir nt.1).output
    [.write (joinPath [out, c!"package.xml"]) (.packageXml (Catkin.forTest pkg nt.1)),
     .write (joinPath [out, c!"", c!"CMakeLists.txt"]) (.cmake (Catkin.forTest pkg nt.1))]

end CatkinGen

namespace MakefileGen

/-- (*OnSuite).Generate, gen/makefile/makefile.go:51-62 -/
def generate (dirs : DirSet) (ctx : CppConfig.Context) (suite : StmSuite) : List Op :=
  [.write (joinPath [dirs.output, c!"Makefile"]) (.makefile suite.tests.keys ctx)]

end MakefileGen

/-- config.Config, gen/config/config.go:13-18 -/
structure GenConfig where
  cpps : List CppConfig.Config
  directory : Str
  deriving DecidableEq, Repr

namespace Gen

/-- The directories of one C++ configuration: initCpp, gen/gen.go:35 -/
def variantDirs (dirs : DirSet) (c : CppConfig.Config) : DirSet := dirs.subdir c.variant.string

/-- The directories to make for one C++ configuration (only its C++ generator has any): mkdirs, gen.go:147-159, with
initCppVariant (47-66).  Simplification: creating the generators does not fail (the templates are embedded). -/
def mkdirOps (dirs : DirSet) (suite : StmSuite) (c : CppConfig.Config) : List Op :=
  (CppGen.dirs ((variantDirs dirs c).subdir c!"src") (c.process suite.types) suite).map .mkdir

/-- The files generated for one C++ configuration: runSubgens, gen.go:161-171, with initCppMain, initCppCatkin and
initCppMakefile (68-101) -/
def writeOps (dirs : DirSet) (suite : StmSuite) (c : CppConfig.Config) : List Op :=
  let vdirs := variantDirs dirs c
  let ctx := c.process suite.types
  CppGen.generate (vdirs.subdir c!"src") c.variant ctx suite ++
  (match c.catkin with
    | none => []
    | some pkg => CatkinGen.generate (vdirs.subdir c!"src") pkg suite) ++
  (if c.makefile then MakefileGen.generate vdirs ctx suite else [])

/-- All operations of a generation, in the order of the suite: New, OnSuite and Generate, gen.go:104-144 -/
def ops (cfg : GenConfig) (outputDir : Str) (suite : StmSuite) : List Op :=
  let dirs : DirSet := ⟨cfg.directory, outputDir⟩
  cfg.cpps.flatMap (mkdirOps dirs suite) ++ cfg.cpps.flatMap (writeOps dirs suite)

/-- One operation. (gen/gen.go:152, gen/templating/templating.go:13-20, gen/cpp/copy.go:49-75.) -/
def runOp (cwd : Loc) (fs : Fs) : Op → Res Fs
  | .mkdir p => fs.mkdirAll (locate cwd p)
  | .write p c => fs.write (locate cwd p) c
  | .copy s d => fs.copy (locate cwd s) (locate cwd d)

/-- Operations in order, up to the first error.  A failed run keeps what was done before. (The order is that of gen/gen.go:134-171.) -/
def run (cwd : Loc) : Fs → List Op → Fs × Res Unit
  | fs, [] => (fs, .ok ())
  | fs, op :: ops =>
    match runOp cwd fs op with
    | .error e => (fs, .error e)
    | .ok fs => run cwd fs ops

/-- maybeClean, cmd/rtcg-gen/main.go:84-98; `outputDir` has been cleaned (68) -/
def maybeClean (cwd : Loc) (fs : Fs) (clean : Bool) (outputDir : Str) : Fs × Res Unit :=
  if !clean then (fs, .ok ())
  else if outputDir = c!"." then (fs, throwErr .cleanDot)
  else fs.removeAll cwd outputDir

/-- (*genAction).run after reading the suite, cmd/rtcg-gen/main.go:67-82, 116-132, with the configuration as loaded.
Simplification: the configuration is not itself inside the directory cleaned. -/
def action (cwd : Loc) (fs : Fs) (clean : Bool) (output : Str) (cfg : GenConfig) (suite : StmSuite) : Fs × Res Unit :=
  let outputDir := cleanPath output
  match maybeClean cwd fs clean outputDir with
  | (fs, .error e) => (fs, .error e)
  | (fs, .ok ()) => run cwd fs (ops cfg outputDir suite)

end Gen

/-! ### command lines -/

namespace Cli

/-- ParseFileArgument, internal/cli/cli.go:18-29.  `maxArgs` may be any integer; indexing outside the list panics. -/
def parseFileArgument (args : List Str) (maxArgs : Int) : Res Str :=
  if (args.length : Int) = maxArgs then
    match (if maxArgs - 1 < 0 then none else args[(maxArgs - 1).toNat]?) with
    | some a => .ok a
    | none => .error .panic
  else if (args.length : Int) = maxArgs - 1 then .ok c!"-"
  else throwErr .badArgs

/-- parseArgs of rtcg-gen after the flags, cmd/rtcg-gen/main.go:47-57: the input file, then the configuration file `argv[0]` -/
def genArgs (argv : List Str) : Res (Str × Str) :=
  match parseFileArgument argv 2 with
  | .error e => .error e
  | .ok input =>
    match argv[0]? with
    | none => .error .panic
    | some c => .ok (input, c)

end Cli

end Rtcg
