import Verif.Model.JsonText
import Verif.Model.Templates
import Verif.Model.TemplateData
import Verif.Model.Xml

/-
The three programs as a user runs them — arguments, files, standard input and output, exit codes — and the script that joins them
(cmd/*/main.go, internal/cli, internal/gen/config, rtcg.sh).
-/

namespace Rtcg

/-- What the text of files depends on besides the inputs, as parameters: the characters beyond ASCII in XML names, upper and lower case,
and the time of generation. (gen/config/config.go:29, strmanip/strmanip.go:16-68.) -/
structure TextLayer where
  /-- the characters beyond ASCII in XML names -/
  names : XmlNames
  /-- upper and lower case -/
  unicode : Unicode
  /-- the time of generation, as time.Time prints itself: gen/cpp/context.go:20-27 -/
  date : Str

/-- The embedded prelude files, gen/cpp/copy.go:16-22,40-47 -/
def preludeText (name : Str) : Str :=
  if name = c!"rtcg.cpp" then TemplateFiles.rtcgCpp else if name = c!"rtcg.h" then TemplateFiles.rtcgH else []

/-- The text of a file: what the user wrote, package.xml as it is marshalled, the prelude as it is embedded, and what the templates make
of their data.  (If the execution of a template fails, what it wrote until then.)  Simplification: CMakeLists.txt and the Makefile are
given by what their templates produce (Model/Templates.lean; that they produce it is `C104_build_files`); and the main.cpp of a test
with a nil verdict, whose execution fails at that verdict, is given as if the verdict were empty. -/
def TextLayer.text (T : TextLayer) : Content → Str
  | .empty => []
  | .user s => s
  | .prelude name => preludeText name
  | .packageXml p => Xml.packageText p
  | .cmake p => Templates.cmakeText p
  | .makefile tests ctx => Templates.makefileText tests ctx
  | c => (Tmpl.render T.unicode T.date c).1

/-- Decoding a configuration, gen/config/config.go:29 -/
def TextLayer.parseConfig (T : TextLayer) (s : Str) : Res GenConfig := Xml.parseConfig T.names s

/-- Where a program runs. (cli/cli.go:32-43.) -/
structure Env where
  cwd : Loc
  fs : Fs
  stdin : Str

namespace Program

/-- HandleError, internal/cli/cli.go:50-62: the exit code.  A panic makes the Go runtime exit with 2. -/
def exitCode {α : Type} : Res α → Nat
  | .ok _ => 0
  | .error (.err _) => 1
  | .error .panic => 2

/-- OpenFileOrStdin, internal/cli/cli.go:32-43, and reading all of it.  There is no file with an empty path, and a directory cannot be
read. -/
def readFileOrStdin (T : TextLayer) (env : Env) (path : Str) : Res Str :=
  if path = c!"-" then .ok env.stdin
  else if path = [] then throwErr .os
  else match env.fs.file (locate env.cwd path) with
    | some c => .ok (T.text c)
    | none => throwErr .os

/-- What a program that writes to standard output did: all it wrote, and its result.  `WriteJSON` writes nothing unless all of the
value can be encoded.  Simplification: writing to standard output does not fail. (serial/serial.go:22-31.) -/
def written : Res Json → Str × Res Unit
  | .error e => ([], .error e)
  | .ok j =>
    match Json.write j with
    | .error e => ([], .error e)
    | .ok text => (text, .ok ())

/-- rtcg-read-traces, cmd/rtcg-read-traces/main.go:20-58; `argv` starts with the name of the program -/
def readTraces (T : TextLayer) (env : Env) (argv : List Str) : Str × Res Unit :=
  match Cli.parseFileArgument argv 2 with
  | .error e => ([], .error e)
  | .ok path =>
    match readFileOrStdin T env path with
    | .error e => ([], .error e)
    | .ok text => written (readTracesProgram text)

/-- rtcg-make-stms, cmd/rtcg-make-stms/main.go:21-91 -/
def makeStms (T : TextLayer) (env : Env) (argv : List Str) : Str × Res Unit :=
  match Cli.parseFileArgument argv 2 with
  | .error e => ([], .error e)
  | .ok path =>
    match readFileOrStdin T env path with
    | .error e => ([], .error e)
    | .ok text =>
      match Json.parse text with
      | .error e => ([], .error e)
      | .ok j => written (makeStmsProgram j)

/-- `filepath.Dir` on Unix: all but the last element, cleaned. (Called at gen/config/config.go:40.) -/
def dirPath (p : Str) : Str := cleanPath (p.reverse.dropWhile (· ≠ '/')).reverse

/-- Load, gen/config/config.go:21-44 -/
def loadConfig (T : TextLayer) (cwd : Loc) (fs : Fs) (path : Str) : Res GenConfig :=
  match fs.file (locate cwd path) with
  | none => throwErr .os
  | some c =>
    match T.parseConfig (T.text c) with
    | .error e => .error e
    | .ok cfg => .ok (if cfg.directory = [] then { cfg with directory := dirPath path } else cfg)

/-- (*genAction).readSuite, cmd/rtcg-gen/main.go:105-114, and stm.ReadSuite -/
def readSuite (T : TextLayer) (env : Env) (path : Str) : Res (StmSuite × (Str → Option Json.Missing)) :=
  match readFileOrStdin T env path with
  | .error e => .error e
  | .ok text =>
    match Json.parse text with
    | .error e => .error e
    | .ok j =>
      match Json.decodeStmSuite j with
      | .error e => .error e
      | .ok suite => .ok (suite, Json.missing j)

/-- (*genAction).generate, cmd/rtcg-gen/main.go:116-132 -/
def generate (T : TextLayer) (cwd : Loc) (fs : Fs) (configFile outputDir : Str) (suite : StmSuite)
    (missing : Str → Option Json.Missing) : Fs × Res Unit :=
  match loadConfig T cwd fs configFile with
  | .error e => (fs, .error e)
  | .ok cfg => Templates.runRead missing cwd fs (Gen.ops cfg outputDir suite)

/-- (*genAction).run, cmd/rtcg-gen/main.go:67-82 -/
def genAction (T : TextLayer) (env : Env) (clean : Bool) (output configFile inputFile : Str) : Fs × Res Unit :=
  let outputDir := cleanPath output
  let configFile := cleanPath configFile
  match readSuite T env (cleanPath inputFile) with
  | .error e => (env.fs, .error e)
  | .ok (suite, missing) =>
    match Gen.maybeClean env.cwd env.fs clean outputDir with
    | (fs, .error e) => (fs, .error e)
    | (fs, .ok ()) => generate T env.cwd fs configFile outputDir suite missing

/-- `parseArgs` from line 49 on and `run`, cmd/rtcg-gen/main.go:27-58; the flags have been taken off, `argv` is what is left. -/
def gen (T : TextLayer) (env : Env) (clean : Bool) (output : Str) (argv : List Str) : Fs × Res Unit :=
  match Cli.genArgs argv with
  | .error e => (env.fs, .error e)
  | .ok (input, config) => genAction T env clean output config input

/-- The flags of rtcg-gen, cmd/rtcg-gen/main.go:42-43 -/
structure Flags where
  clean : Bool
  output : Str
  deriving DecidableEq

/-- strconv.ParseBool. (For cmd/rtcg-gen/main.go:42.) -/
def parseBool (s : Str) : Option Bool :=
  if s ∈ [c!"1", c!"t", c!"T", c!"TRUE", c!"true", c!"True"] then some true
  else if s ∈ [c!"0", c!"f", c!"F", c!"FALSE", c!"false", c!"False"] then some false
  else none

/-- The name of a flag and its value, if it has one after `=` (package flag, `parseOne`). (For cmd/rtcg-gen/main.go:45.) -/
def splitFlag (s : Str) : Str × Option Str :=
  (s.takeWhile (· ≠ '='), match s.dropWhile (· ≠ '=') with
    | [] => none
    | _ :: v => some v)

/-- flag.Parse (package flag, `Parse` and `parseOne`) with the flags of cmd/rtcg-gen/main.go:42-45: the flags and the arguments that are
left, or the exit code: 0 when help is asked for, 2 for an error. -/
def parseFlags (f : Flags) : List Str → Except Nat (Flags × List Str)
  | [] => .ok (f, [])
  | s :: args =>
    if s.length < 2 ∨ s.head? ≠ some '-' then .ok (f, s :: args)
    else if s = c!"--" then .ok (f, args)
    else
      let name := if s.tail.head? = some '-' then s.tail.tail else s.tail
      if name = [] ∨ name.head? = some '-' ∨ name.head? = some '=' then .error 2
      else
        let key := (splitFlag name).1
        if key = c!"clean" then
          match (splitFlag name).2 with
          | none => parseFlags { f with clean := true } args
          | some v =>
            match parseBool v with
            | none => .error 2
            | some b => parseFlags { f with clean := b } args
        else if key = c!"output" then
          match (splitFlag name).2 with
          | some v => parseFlags { f with output := v } args
          | none =>
            match args with
            | [] => .error 2
            | v :: args => parseFlags { f with output := v } args
        else if key = c!"help" ∨ key = c!"h" then .error 0
        else .error 2

/-- rtcg-gen, cmd/rtcg-gen/main.go:19-58: the files it leaves and its exit code; `args` without the name of the program. -/
def genMain (T : TextLayer) (env : Env) (args : List Str) : Fs × Nat :=
  match parseFlags ⟨false, c!"out"⟩ args with
  | .error code => (env.fs, code)
  | .ok (f, argv) =>
    match gen T env f.clean f.output argv with
    | (fs, r) => (fs, exitCode r)

/-- The pipeline of rtcg.sh:23-25, with the arguments as `main` (8-21) passes them; the shell's exit code is that of the last program.
The programs only share the pipes. -/
def pipeline (T : TextLayer) (env : Env) (config trace : Str) : Fs × Nat :=
  let r1 := readTraces T env [c!"./bin/rtcg-read-traces", trace]
  let r2 := makeStms T { env with stdin := r1.1 } [c!"./bin/rtcg-make-stms", c!"-"]
  genMain T { env with stdin := r2.1 } [config, c!"-"]

/-- rtcg.sh; `args` without the name of the script -/
def script (T : TextLayer) (env : Env) : List Str → Fs × Nat
  | [config] => pipeline T env config c!"-"
  | [config, trace] => pipeline T env config trace
  | _ => (env.fs, 1)

end Program

end Rtcg
