import Verif.Proofs.JsonMissing
import Verif.Model.Programs
import Verif.Props.EndToEnd
import Verif.Props.Templates
import Verif.Proofs.Config

/-
C84–C88: the programs as they are run, and the script that joins them.
-/

namespace Rtcg

open Spec Program

/-- The text a program reads when given a path: standard input for `-`, otherwise the file. -/
def Spec.Reads (T : TextLayer) (env : Env) (path text : Str) : Prop :=
  (path = c!"-" ∧ text = env.stdin) ∨
  (path ≠ c!"-" ∧ path ≠ [] ∧ ∃ c, env.fs.file (locate env.cwd path) = some c ∧ text = T.text c)

/-- The input named on a command line that starts with the program's name: `-` if left out. -/
def Spec.InputArg (argv : List Str) (path : Str) : Prop := (∃ p, argv = [p] ∧ path = c!"-") ∨ ∃ p, argv = [p, path]

namespace Programs

theorem reads_iff {T : TextLayer} {env : Env} {path text : Str} : readFileOrStdin T env path = .ok text ↔ Reads T env path text := by
  unfold readFileOrStdin Reads
  by_cases h1 : path = c!"-"
  · rw [if_pos h1]
    simp only [h1, true_and, ne_eq, not_true_eq_false, false_and, or_false]
    constructor
    · intro h; cases h; rfl
    · rintro rfl; rfl
  · rw [if_neg h1]
    by_cases h2 : path = []
    · simp [h2, throwErr]
    · rw [if_neg h2]
      cases hf : env.fs.file (locate env.cwd path) with
      | none => simp [h1, throwErr]
      | some c =>
        simp only [h1, false_and, false_or, ne_eq, not_false_eq_true, h2, true_and, Option.some.injEq, exists_eq_left']
        constructor
        · intro h; cases h; rfl
        · rintro rfl; rfl

theorem arg_iff {argv : List Str} {path : Str} : Cli.parseFileArgument argv 2 = .ok path ↔ InputArg argv path := by
  rw [show ((2 : Int)) = ((2 : Nat) : Int) from rfl, C53_parseFileArgument argv 2 (by decide)]
  unfold InputArg
  match argv with
  | [] => simp [throwErr]
  | [a] =>
    simp only [List.length_cons, List.length_nil]
    constructor
    · intro h; cases h; exact .inl ⟨a, rfl, rfl⟩
    · rintro (⟨p, h, rfl⟩ | ⟨p, h⟩)
      · rfl
      · simp at h
  | [a, b] =>
    simp only [List.length_cons, List.length_nil]
    constructor
    · intro h; cases h; exact .inr ⟨a, rfl⟩
    · rintro (⟨p, h, rfl⟩ | ⟨p, h⟩)
      · simp at h
      · cases h; rfl
  | a :: b :: c :: r => simp [throwErr]

theorem arg_total (argv : List Str) : (∃ path, InputArg argv path) ∨ Cli.parseFileArgument argv 2 = throwErr .badArgs := by
  cases h : Cli.parseFileArgument argv 2 with
  | ok p => exact .inl ⟨p, arg_iff.1 h⟩
  | error e =>
    right
    rw [show ((2 : Int)) = ((2 : Nat) : Int) from rfl, C53_parseFileArgument argv 2 (by decide)] at h
    split at h
    · cases h
    · split at h
      · cases h
      · exact h.symm

theorem written_ok {r : Res Json} {out : Str} : written r = (out, .ok ()) ↔ ∃ j, r = .ok j ∧ Json.write j = .ok out := by
  cases r with
  | ok j =>
    cases hw : Json.write j with
    | ok t =>
      simp only [written, hw, Prod.mk.injEq, and_true]
      constructor
      · rintro rfl; exact ⟨j, rfl, hw⟩
      · rintro ⟨j', h, h'⟩; cases h; rw [hw] at h'; cases h'; rfl
    | error e =>
      simp only [written, hw, Prod.mk.injEq, reduceCtorEq, and_false, false_iff]
      rintro ⟨j', h, h'⟩; cases h; rw [hw] at h'; cases h'
  | error e => simp [written]

theorem written_silent {r : Res Json} (h : (written r).2 ≠ .ok ()) : (written r).1 = [] := by
  cases r with
  | ok j =>
    cases hw : Json.write j with
    | ok t => simp only [written, hw, ne_eq, not_true_eq_false] at h
    | error e => simp only [written, hw]
  | error e => rfl

end Programs

open Programs

/-! ### C84 -/

/-- C84: rtcg-read-traces succeeds, and writes its suite, only for a readable input that is a good traces file; otherwise it writes
nothing. -/
theorem C84_read_traces (T : TextLayer) (env : Env) (argv : List Str) :
    ((readTraces T env argv).2 ≠ .ok () → (readTraces T env argv).1 = []) ∧
    ∀ out, readTraces T env argv = (out, .ok ()) ↔ ∃ path text j, InputArg argv path ∧ Reads T env path text ∧
      (∃ traces, Forbidden.read text = some (.ok traces)) ∧ readTracesProgram text = .ok j ∧ Json.write j = .ok out := by
  have hread : ∀ text j, readTracesProgram text = .ok j → ∃ traces, Forbidden.read text = some (.ok traces) := by
    intro text j h
    unfold readTracesProgram at h
    cases hr : Forbidden.read text with
    | none => rw [hr] at h; cases h
    | some r =>
      cases r with
      | error e => rw [hr] at h; cases h
      | ok traces => exact ⟨traces, rfl⟩
  unfold readTraces
  constructor
  · intro h
    cases ha : Cli.parseFileArgument argv 2 with
    | error e => rfl
    | ok path =>
      simp only [ha] at h ⊢
      cases hr : readFileOrStdin T env path with
      | error e => rfl
      | ok text => simp only [hr] at h ⊢; exact written_silent h
  · intro out
    cases ha : Cli.parseFileArgument argv 2 with
    | error e =>
      simp only [Prod.mk.injEq, reduceCtorEq, and_false, false_iff]
      rintro ⟨path, text, j, h, _⟩
      rw [arg_iff.2 h] at ha; cases ha
    | ok path =>
      have hA := arg_iff.1 ha
      simp only
      cases hr : readFileOrStdin T env path with
      | error e =>
        simp only [Prod.mk.injEq, reduceCtorEq, and_false, false_iff]
        rintro ⟨path', text, j, h, h2, _⟩
        rw [arg_iff.2 h] at ha; cases ha
        rw [reads_iff.2 h2] at hr; cases hr
      | ok text =>
        simp only
        rw [written_ok]
        constructor
        · rintro ⟨j, h1, h2⟩
          exact ⟨path, text, j, hA, reads_iff.1 hr, hread text j h1, h1, h2⟩
        · rintro ⟨path', text', j, h1, h2, _, h3, h4⟩
          rw [arg_iff.2 h1] at ha; cases ha
          rw [reads_iff.2 h2] at hr; cases hr
          exact ⟨j, h3, h4⟩

/-- C84: rtcg-make-stms succeeds, and writes its machines, only for a readable input that is a valid suite; otherwise it writes
nothing. -/
theorem C84_make_stms (T : TextLayer) (env : Env) (argv : List Str) :
    ((makeStms T env argv).2 ≠ .ok () → (makeStms T env argv).1 = []) ∧
    ∀ out, makeStms T env argv = (out, .ok ()) ↔ ∃ path text input j, InputArg argv path ∧ Reads T env path text ∧
      Json.parse text = .ok input ∧ (∃ s vs, Json.decodeSuite input = .ok s ∧ Validate.fullSuite s = .ok vs) ∧
      makeStmsProgram input = .ok j ∧ Json.write j = .ok out := by
  have hvalid : ∀ input j, makeStmsProgram input = .ok j → ∃ s vs, Json.decodeSuite input = .ok s ∧ Validate.fullSuite s = .ok vs := by
    intro input j h
    unfold makeStmsProgram at h
    cases hd : Json.decodeSuite input with
    | error e => rw [hd] at h; cases h
    | ok s =>
      rw [hd] at h
      simp only at h
      cases hf : Validate.fullSuite s with
      | error e => rw [hf] at h; cases h
      | ok vs => exact ⟨s, vs, rfl, hf⟩
  unfold makeStms
  constructor
  · intro h
    cases ha : Cli.parseFileArgument argv 2 with
    | error e => rfl
    | ok path =>
      simp only [ha] at h ⊢
      cases hr : readFileOrStdin T env path with
      | error e => rfl
      | ok text =>
        simp only [hr] at h ⊢
        cases hp : Json.parse text with
        | error e => rfl
        | ok input => simp only [hp] at h ⊢; exact written_silent h
  · intro out
    cases ha : Cli.parseFileArgument argv 2 with
    | error e =>
      simp only [Prod.mk.injEq, reduceCtorEq, and_false, false_iff]
      rintro ⟨path, text, i, j, h, _⟩
      rw [arg_iff.2 h] at ha; cases ha
    | ok path =>
      have hA := arg_iff.1 ha
      simp only
      cases hr : readFileOrStdin T env path with
      | error e =>
        simp only [Prod.mk.injEq, reduceCtorEq, and_false, false_iff]
        rintro ⟨path', text, i, j, h, h2, _⟩
        rw [arg_iff.2 h] at ha; cases ha
        rw [reads_iff.2 h2] at hr; cases hr
      | ok text =>
        simp only
        cases hp : Json.parse text with
        | error e =>
          simp only [Prod.mk.injEq, reduceCtorEq, and_false, false_iff]
          rintro ⟨path', text', i, j, h, h2, h3, _⟩
          rw [arg_iff.2 h] at ha; cases ha
          rw [reads_iff.2 h2] at hr; cases hr
          rw [h3] at hp; cases hp
        | ok input =>
          simp only
          rw [written_ok]
          constructor
          · rintro ⟨j, h1, h2⟩
            exact ⟨path, text, input, j, hA, reads_iff.1 hr, hp, hvalid input j h1, h1, h2⟩
          · rintro ⟨path', text', i, j, h1, h2, h3, _, h4, h5⟩
            rw [arg_iff.2 h1] at ha; cases ha
            rw [reads_iff.2 h2] at hr; cases hr
            rw [h3] at hp; cases hp
            exact ⟨j, h4, h5⟩

/-- C84: rtcg-gen succeeds only if its arguments, its suite and its configuration are good. -/
theorem C84_gen (T : TextLayer) (env : Env) (clean : Bool) (output : Str) (argv : List Str) (fs' : Fs)
    (h : gen T env clean output argv = (fs', .ok ())) :
    ∃ config input text j suite c raw fs, (argv = [config] ∧ input = c!"-" ∨ argv = [config, input]) ∧
      Reads T env (cleanPath input) text ∧ Json.parse text = .ok j ∧ Json.decodeStmSuite j = .ok suite ∧
      Gen.maybeClean env.cwd env.fs clean (cleanPath output) = (fs, .ok ()) ∧
      fs.file (locate env.cwd config) = some c ∧ ConfigXml.Says T.names (T.text c) raw := by
  unfold gen at h
  rw [C53_genArgs] at h
  have hact : ∀ config input, genAction T env clean output config input = (fs', .ok ()) → ∃ text j suite c raw fs,
      Reads T env (cleanPath input) text ∧ Json.parse text = .ok j ∧ Json.decodeStmSuite j = .ok suite ∧
      Gen.maybeClean env.cwd env.fs clean (cleanPath output) = (fs, .ok ()) ∧
      fs.file (locate env.cwd config) = some c ∧ ConfigXml.Says T.names (T.text c) raw := by
    intro config input h
    unfold genAction readSuite at h
    cases hr : readFileOrStdin T env (cleanPath input) with
    | error e => simp only [hr, Prod.mk.injEq, reduceCtorEq, and_false] at h
    | ok text =>
      simp only [hr] at h
      cases hp : Json.parse text with
      | error e => simp only [hp, Prod.mk.injEq, reduceCtorEq, and_false] at h
      | ok j =>
        simp only [hp] at h
        cases hd : Json.decodeStmSuite j with
        | error e => simp only [hd, Prod.mk.injEq, reduceCtorEq, and_false] at h
        | ok suite =>
          simp only [hd] at h
          cases hm : Gen.maybeClean env.cwd env.fs clean (cleanPath output) with
          | mk fs r =>
            cases r with
            | error e => simp only [hm, Prod.mk.injEq, reduceCtorEq, and_false] at h
            | ok u =>
              simp only [hm] at h
              unfold generate loadConfig at h
              rw [locate_cleanPath] at h
              cases hc : fs.file (locate env.cwd config) with
              | none => simp only [hc, throwErr, Prod.mk.injEq, reduceCtorEq, and_false] at h
              | some c =>
                simp only [hc] at h
                cases hx : T.parseConfig (T.text c) with
                | error e => simp only [hx, Prod.mk.injEq, reduceCtorEq, and_false] at h
                | ok raw => exact ⟨text, j, suite, c, raw, fs, reads_iff.1 hr, hp, hd, rfl, hc, (ConfigProofs.parseConfig_iff _ _ _).1 hx⟩
  match argv, h with
  | [], h => simp [throwErr] at h
  | [cfg], h =>
    obtain ⟨text, j, suite, c, raw, fs, h⟩ := hact _ _ h
    exact ⟨cfg, c!"-", text, j, suite, c, raw, fs, .inl ⟨rfl, rfl⟩, h⟩
  | [cfg, input], h =>
    obtain ⟨text, j, suite, c, raw, fs, h⟩ := hact _ _ h
    exact ⟨cfg, input, text, j, suite, c, raw, fs, .inr rfl, h⟩
  | a :: b :: c :: r, h => simp [throwErr] at h

end Rtcg
