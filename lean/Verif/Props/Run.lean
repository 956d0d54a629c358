import Verif.Spec.Flags
import Verif.Props.JsonText
import Verif.Props.Programs

/-
C88–C92: rtcg-gen and the script rtcg.sh as they are run.
-/

namespace Rtcg

open Spec Program Programs

/-! ### C92 -/

namespace Run

theorem parseBool_iff {s : Str} {b : Bool} : parseBool s = some b ↔ BoolText s b := by
  unfold parseBool BoolText
  cases b
  · simp only [Bool.false_eq_true, if_false]
    constructor
    · intro h
      split at h
      · cases h
      · split at h
        · assumption
        · cases h
    · intro h
      simp only [List.mem_cons, List.not_mem_nil, or_false] at h
      rcases h with rfl | rfl | rfl | rfl | rfl | rfl <;> decide
  · simp only [if_true]
    constructor
    · intro h
      split at h
      · assumption
      · split at h <;> cases h
    · intro h; rw [if_pos h]

theorem splitFlag_eq {s key : Str} {v : Option Str} (h : splitFlag s = (key, v)) :
    s = key ++ (match v with | none => [] | some v => '=' :: v) := by
  unfold splitFlag at h
  simp only [Prod.mk.injEq] at h
  obtain ⟨h1, h2⟩ := h
  have hs := (List.takeWhile_append_dropWhile (p := (· ≠ '=')) (l := s)).symm
  rw [h1] at hs
  cases hd : s.dropWhile (· ≠ '=') with
  | nil => rw [hd] at h2 hs; subst h2; exact hs
  | cons c r =>
    rw [hd] at h2 hs; subst h2
    have := List.head?_dropWhile_not (· ≠ '=') s
    rw [hd] at this
    simp at this
    subst this
    exact hs

theorem splitFlag_key {key : Str} (h : '=' ∉ key) : splitFlag key = (key, none) ∧ ∀ v, splitFlag (key ++ '=' :: v) = (key, some v) := by
  have hp : ∀ a ∈ key, (decide (a ≠ '=')) = true := fun a ha => by
    simp only [ne_eq, decide_not, Bool.not_eq_eq_eq_not, Bool.not_true, decide_eq_false_iff_not]; rintro rfl; exact h ha
  constructor
  · unfold splitFlag
    have h1 : key.takeWhile (fun x => decide (x ≠ '=')) = key := by
      clear h
      induction key with
      | nil => rfl
      | cons c r ih => rw [List.takeWhile_cons_of_pos (p := fun x => decide (x ≠ '=')) (hp c (by simp)), ih fun a ha => hp a (by simp [ha])]
    have h2 : key.dropWhile (fun x => decide (x ≠ '=')) = [] := by
      have := List.takeWhile_append_dropWhile (p := fun x => decide (x ≠ '=')) (l := key)
      rw [h1] at this
      exact List.append_right_eq_self.1 this
    rw [h1, h2]
  · intro v
    unfold splitFlag
    rw [List.takeWhile_append_of_pos hp, List.dropWhile_append_of_pos hp]
    rw [List.takeWhile_cons_of_neg (by decide), List.dropWhile_cons_of_neg (by decide), List.append_nil]

/-- The dashes and the name of an argument that is a flag. -/
theorem dashed {s : Str} (h1 : ¬ (s.length < 2 ∨ s.head? ≠ some '-')) :
    ∃ d, Dashes d ∧ s = d ++ (if s.tail.head? = some '-' then s.tail.tail else s.tail) := by
  match s, h1 with
  | [], h1 => simp at h1
  | [a], h1 => simp at h1
  | a :: b :: r, h1 =>
    simp only [List.length_cons, List.head?_cons, ne_eq, Option.some.injEq, not_or, Decidable.not_not] at h1
    obtain ⟨_, rfl⟩ := h1
    simp only [List.tail_cons, List.head?_cons, Option.some.injEq]
    split
    · rename_i h; subst h; exact ⟨c!"--", .inr rfl, rfl⟩
    · exact ⟨c!"-", .inl rfl, rfl⟩

/-- What a dashed name looks like to the parser. -/
theorem dashed_name {d name : Str} (hd : Dashes d) (hne : name ≠ []) (hh : name.head? ≠ some '-') :
    ¬ ((d ++ name).length < 2 ∨ (d ++ name).head? ≠ some '-') ∧ d ++ name ≠ c!"--" ∧
    (if (d ++ name).tail.head? = some '-' then (d ++ name).tail.tail else (d ++ name).tail) = name := by
  cases name with
  | nil => exact absurd rfl hne
  | cons x xs =>
    simp only [List.head?_cons, ne_eq, Option.some.injEq] at hh
    rcases hd with rfl | rfl
    · simp [hh]
    · simp

theorem end_ok {f : Flags} {args rest : List Str} (h : FlagsEnd args rest) : parseFlags f args = .ok (f, rest) := by
  cases h with
  | none => rfl
  | dash => rw [parseFlags.eq_def]; simp only; rw [if_pos (by decide)]
  | word h => rw [parseFlags.eq_def]; simp only; rw [if_pos (.inr h)]
  | stop => rw [parseFlags.eq_def]; simp only; rw [if_neg (by decide)]; rfl

theorem use_ok {u args : List Str} {x y : Bool × Str} (h : FlagUse u x y) :
    parseFlags ⟨x.1, x.2⟩ (u ++ args) = parseFlags ⟨y.1, y.2⟩ args := by
  cases h with
  | clean hd =>
    obtain ⟨h1, h2, h3⟩ := dashed_name (name := c!"clean") hd (by decide) (by decide)
    rw [List.singleton_append, parseFlags.eq_def]
    simp only [h3]
    rw [if_neg h1, if_neg h2]
    rw [if_neg (by decide), if_pos (by decide), show (splitFlag c!"clean").2 = none from by decide]
  | cleanIs hd hv =>
    rename_i d v c b o
    obtain ⟨h1, h2, h3⟩ := dashed_name (name := c!"clean=" ++ v) hd (by simp) (by simp)
    have hs : splitFlag (c!"clean=" ++ v) = (c!"clean", some v) := (splitFlag_key (key := c!"clean") (by decide)).2 v
    rw [List.append_assoc, List.singleton_append, parseFlags.eq_def]
    simp only [h3]
    rw [if_neg h1, if_neg h2]
    rw [if_neg (by simp), hs, if_pos rfl]
    simp only
    rw [parseBool_iff.2 hv]
  | output hd =>
    rename_i d v c o
    obtain ⟨h1, h2, h3⟩ := dashed_name (name := c!"output") hd (by decide) (by decide)
    rw [List.cons_append, List.singleton_append, parseFlags.eq_def]
    simp only [h3]
    rw [if_neg h1, if_neg h2]
    rw [if_neg (by decide), if_neg (by decide), if_pos (by decide), show (splitFlag c!"output").2 = none from by decide]
  | outputIs hd =>
    rename_i d v c o
    obtain ⟨h1, h2, h3⟩ := dashed_name (name := c!"output=" ++ v) hd (by simp) (by simp)
    have hs : splitFlag (c!"output=" ++ v) = (c!"output", some v) := (splitFlag_key (key := c!"output") (by decide)).2 v
    rw [List.append_assoc, List.singleton_append, parseFlags.eq_def]
    simp only [h3]
    rw [if_neg h1, if_neg h2]
    rw [if_neg (by simp), hs]
    simp only
    rw [if_neg (by decide)]; rfl

theorem flags_sound (n : Nat) : ∀ (args : List Str), args.length ≤ n → ∀ (f f' : Flags) (rest : List Str),
    parseFlags f args = .ok (f', rest) → CommandLine args (f.clean, f.output) (f'.clean, f'.output) rest := by
  induction n with
  | zero =>
    intro args hl f f' rest h
    match args, hl with
    | [], _ => rw [parseFlags] at h; cases h; exact .done .none
  | succ n ih =>
    intro args hl f f' rest h
    match args, hl with
    | [], _ => rw [parseFlags] at h; cases h; exact .done .none
    | s :: args, hl =>
      have hl' : args.length ≤ n := by simpa using hl
      rw [parseFlags.eq_def] at h
      simp only at h
      by_cases h1 : s.length < 2 ∨ s.head? ≠ some '-'
      · rw [if_pos h1] at h
        cases h
        by_cases hh : s.head? = some '-'
        · rcases h1 with h1 | h1
          · match s, hh, h1 with
            | [c], hh, _ =>
              simp only [List.head?_cons, Option.some.injEq] at hh
              subst hh
              exact .done .dash
          · exact absurd hh h1
        · exact .done (.word hh)
      rw [if_neg h1] at h
      by_cases h2 : s = c!"--"
      · rw [if_pos h2] at h
        cases h; subst h2
        exact .done .stop
      rw [if_neg h2] at h
      obtain ⟨d, hd, hs⟩ := dashed h1
      generalize (if s.tail.head? = some '-' then s.tail.tail else s.tail) = name at h hs
      by_cases h3 : name = [] ∨ name.head? = some '-' ∨ name.head? = some '='
      · rw [if_pos h3] at h; cases h
      rw [if_neg h3] at h
      cases hsp : splitFlag name with
      | mk key v =>
        have hname := splitFlag_eq hsp
        simp only [hsp] at h
        by_cases h4 : key = c!"clean"
        · rw [if_pos h4] at h
          subst h4
          cases v with
          | none =>
            simp only [List.append_nil] at h hname
            subst hname; subst hs
            exact .flag (u := [_]) (.clean hd) (ih args hl' _ _ _ h)
          | some v =>
            simp only at h hname
            cases hb : parseBool v with
            | none => simp only [hb] at h; cases h
            | some b =>
              simp only [hb] at h
              subst hname; subst hs
              have := FlagUse.cleanIs (c := f.clean) (o := f.output) hd (parseBool_iff.1 hb)
              rw [List.append_assoc] at this
              exact .flag (u := [_]) this (ih args hl' _ _ _ h)
        · rw [if_neg h4] at h
          by_cases h5 : key = c!"output"
          · rw [if_pos h5] at h
            subst h5
            cases v with
            | none =>
              simp only [List.append_nil] at h hname
              match args, hl', h with
              | [], _, h => cases h
              | v :: args, hl', h =>
                subst hname; subst hs
                exact .flag (u := [_, v]) (.output hd) (ih args (by simp at hl'; omega) _ _ _ h)
            | some v =>
              simp only at h hname
              subst hname; subst hs
              have := FlagUse.outputIs (c := f.clean) (o := f.output) (v := v) hd
              rw [List.append_assoc] at this
              exact .flag (u := [_]) this (ih args hl' _ _ _ h)
          · rw [if_neg h5] at h
            split at h <;> cases h

end Run

/-- C92: rtcg-gen takes its flags apart just as described: flags first, in any order and number, the last of each kind deciding, each with
one or two dashes; then the other arguments. -/
theorem C92_flags (clean : Bool) (output : Str) (args : List Str) (clean' : Bool) (output' : Str) (rest : List Str) :
    parseFlags ⟨clean, output⟩ args = .ok (⟨clean', output'⟩, rest) ↔ CommandLine args (clean, output) (clean', output') rest := by
  constructor
  · exact Run.flags_sound _ args (Nat.le_refl _) _ _ rest
  · intro h
    generalize hx : (clean, output) = x at h
    generalize hy : (clean', output') = y at h
    have : parseFlags ⟨x.1, x.2⟩ args = .ok (⟨y.1, y.2⟩, rest) := by
      clear hx hy
      induction h with
      | done h => exact Run.end_ok h
      | flag h _ ih => rw [Run.use_ok h]; exact ih
    subst hx; subst hy
    exact this

example : parseFlags ⟨false, c!"out"⟩ [c!"--output=x", c!"-clean", c!"-output", c!"-y", c!"cfg", c!"-clean"] =
    .ok (⟨true, c!"-y"⟩, [c!"cfg", c!"-clean"]) := by decide +kernel

/-! ### C88 -/

/-- The suite that rtcg-gen is given: the argument is good, the input can be read, and it holds a suite. -/
def Spec.GivenSuite (T : TextLayer) (env : Env) (argv : List Str) (config : Str) (suite : StmSuite) : Prop :=
  ∃ input text j, (argv = [config] ∧ input = c!"-" ∨ argv = [config, input]) ∧ Reads T env (cleanPath input) text ∧
    Json.parse text = .ok j ∧ Json.decodeStmSuite j = .ok suite

/-- The same, with the JSON that it was read from. -/
def Spec.GivenJson (T : TextLayer) (env : Env) (argv : List Str) (config : Str) (j : Json) (suite : StmSuite) : Prop :=
  ∃ input text, (argv = [config] ∧ input = c!"-" ∨ argv = [config, input]) ∧ Reads T env (cleanPath input) text ∧
    Json.parse text = .ok j ∧ Json.decodeStmSuite j = .ok suite

theorem Spec.GivenSuite.json {T : TextLayer} {env : Env} {argv : List Str} {config : Str} {suite : StmSuite}
    (h : GivenSuite T env argv config suite) : ∃ j, GivenJson T env argv config j suite := by
  obtain ⟨input, text, j, h⟩ := h
  exact ⟨j, input, text, h⟩

namespace Run

theorem readSuite_iff {T : TextLayer} {env : Env} {path : Str} {suite : StmSuite} {mis : Str → Option Json.Missing} :
    readSuite T env path = .ok (suite, mis) ↔
    ∃ text j, Reads T env path text ∧ Json.parse text = .ok j ∧ Json.decodeStmSuite j = .ok suite ∧ mis = Json.missing j := by
  unfold readSuite
  cases hr : readFileOrStdin T env path with
  | error e =>
    simp only [reduceCtorEq, false_iff]
    rintro ⟨text, j, h, _⟩
    rw [reads_iff.2 h] at hr; cases hr
  | ok text =>
    simp only
    constructor
    · intro h
      cases hp : Json.parse text with
      | error e => simp only [hp] at h; cases h
      | ok j =>
        simp only [hp] at h
        cases hd : Json.decodeStmSuite j with
        | error e => simp only [hd] at h; cases h
        | ok s =>
          simp only [hd] at h
          cases h
          exact ⟨text, j, reads_iff.1 hr, hp, hd, rfl⟩
    · rintro ⟨text', j, h1, h2, h3, rfl⟩
      rw [reads_iff.2 h1] at hr; cases hr
      simp only [h2, h3]

/-- rtcg-gen on what it was given. -/
theorem gen_given {T : TextLayer} {env : Env} {clean : Bool} {output : Str} {argv : List Str} {config : Str} {j : Json} {suite : StmSuite}
    (h : GivenJson T env argv config j suite) : gen T env clean output argv =
      match Gen.maybeClean env.cwd env.fs clean (cleanPath output) with
      | (fs, .error e) => (fs, .error e)
      | (fs, .ok ()) => generate T env.cwd fs (cleanPath config) (cleanPath output) suite (Json.missing j) := by
  obtain ⟨input, text, ha, h1, h2, h3⟩ := h
  have hs := readSuite_iff.2 ⟨text, j, h1, h2, h3, rfl⟩
  unfold gen
  rw [C53_genArgs]
  rcases ha with ⟨rfl, rfl⟩ | rfl
  · simp only [genAction, hs]; rfl
  · simp only [genAction, hs]; rfl

theorem gen_not_given {T : TextLayer} {env : Env} {clean : Bool} {output : Str} {argv : List Str}
    (h : ¬ ∃ config suite, GivenSuite T env argv config suite) : ∃ e, gen T env clean output argv = (env.fs, .error e) := by
  have key : ∀ config input, (argv = [config] ∧ input = c!"-" ∨ argv = [config, input]) →
      ∃ e, genAction T env clean output config input = (env.fs, .error e) := by
    intro config input ha
    cases hs : readSuite T env (cleanPath input) with
    | error e => exact ⟨e, by simp only [genAction, hs]⟩
    | ok r =>
      obtain ⟨suite, mis⟩ := r
      obtain ⟨text, j, h1, h2, h3, _⟩ := readSuite_iff.1 hs
      exact absurd ⟨config, suite, input, text, j, ha, h1, h2, h3⟩ h
  unfold gen
  rw [C53_genArgs]
  match argv, key with
  | [], _ => exact ⟨_, rfl⟩
  | [c], key => exact key c c!"-" (.inl ⟨rfl, rfl⟩)
  | [c, i], key => exact key c i (.inr rfl)
  | a :: b :: c :: r, _ => exact ⟨_, rfl⟩

end Run

/-- C88, partly: rtcg-gen fails and changes no file when its arguments are wrong or it is given no suite that can be read; and without
-clean, when its configuration cannot be read.  The property asks this of every failure. -/
theorem C88_failure_keeps_partial (T : TextLayer) (env : Env) (clean : Bool) (output : Str) (argv : List Str) :
    ((¬ ∃ config suite, GivenSuite T env argv config suite) → ∃ e, gen T env clean output argv = (env.fs, .error e)) ∧
    (∀ config suite, GivenSuite T env argv config suite →
      (¬ ∃ c raw, env.fs.file (locate env.cwd config) = some c ∧ ConfigXml.Says T.names (T.text c) raw) →
      ∃ e, gen T env false output argv = (env.fs, .error e)) := by
  refine ⟨Run.gen_not_given, fun config suite hg hc => ?_⟩
  obtain ⟨j, hg⟩ := hg.json
  rw [Run.gen_given hg]
  simp only [Gen.maybeClean, Bool.not_false, if_true]
  unfold generate loadConfig
  rw [locate_cleanPath]
  cases hf : env.fs.file (locate env.cwd config) with
  | none => exact ⟨_, rfl⟩
  | some c =>
    simp only
    cases hp : T.parseConfig (T.text c) with
    | error e => exact ⟨e, rfl⟩
    | ok raw => exact absurd ⟨c, raw, hf, (ConfigProofs.parseConfig_iff _ _ _).1 hp⟩ hc

/-- C88 is false as it stands: with -clean, the output of an earlier run is gone before the configuration is found to be missing. -/
theorem C88_false (T : TextLayer) : let fs : Fs := ⟨fun a => decide (a = [] ∨ a = [c!"out"]), fun a =>
      if a = [c!"out", c!"Makefile"] then some (.user c!"all:") else none⟩
    ∃ fs' e, gen T ⟨[], fs, c!"{}"⟩ true c!"out" [c!"no-such-file"] = (fs', .error e) ∧
      fs.file [c!"out", c!"Makefile"] ≠ none ∧ fs'.file [c!"out", c!"Makefile"] = none := by
  intro fs
  have hg : GivenJson T ⟨[], fs, c!"{}"⟩ [c!"no-such-file"] c!"no-such-file" (.obj []) ⟨[], []⟩ :=
    ⟨c!"-", c!"{}", .inl ⟨rfl, rfl⟩, .inl ⟨by decide, rfl⟩, rfl, rfl⟩
  rw [Run.gen_given hg]
  have hm : Gen.maybeClean [] fs true (cleanPath c!"out") = (fs.removeTree [c!"out"] false, .ok ()) := by
    unfold Gen.maybeClean
    rw [if_neg (by decide), if_neg (by decide)]
    unfold Fs.removeAll
    rw [if_neg (by decide)]
    rfl
  simp only [hm]
  refine ⟨_, .err .os, rfl, ?_, ?_⟩
  · decide
  · decide

/-! ### C89 -/

namespace Run

theorem dropWhile_reverse (a b : Str) (hb : '/' ∉ b) : ((a ++ '/' :: b).reverse.dropWhile (· ≠ '/')).reverse = a ++ ['/'] := by
  rw [List.reverse_append, List.reverse_cons, List.append_assoc, List.dropWhile_append_of_pos (by
    intro c hc
    simp only [ne_eq, decide_not, Bool.not_eq_eq_eq_not, Bool.not_true, decide_eq_false_iff_not]
    rintro rfl
    exact hb (List.mem_reverse.1 hc))]
  rw [List.singleton_append, List.dropWhile_cons_of_neg (by decide)]
  simp

theorem dropWhile_reverse_none (b : Str) (hb : '/' ∉ b) : (b.reverse.dropWhile (· ≠ '/')).reverse = [] := by
  have : b.reverse.dropWhile (fun x => decide (x ≠ '/')) = [] := by
    have h := List.dropWhile_append_of_pos (p := fun x => decide (x ≠ '/')) (l₁ := b.reverse) (l₂ := []) (by
      intro c hc
      simp only [ne_eq, decide_not, Bool.not_eq_eq_eq_not, Bool.not_true, decide_eq_false_iff_not]
      rintro rfl
      exact hb (List.mem_reverse.1 hc))
    simpa using h
  rw [this]; rfl

theorem normPath_slash (a : Str) (ha : a ≠ []) : normPath (a ++ ['/']) = normPath a := by
  unfold normPath
  rw [isRooted_append _ ha, splitSlash_append, List.foldl_append]
  congr 1

theorem intercalate_concat (cs : List Str) (b : Str) (h : cs ≠ []) :
    List.intercalate c!"/" (cs ++ [b]) = List.intercalate c!"/" cs ++ '/' :: b := by
  induction cs with
  | nil => exact absurd rfl h
  | cons c cs ih =>
    cases cs with
    | nil => simp [List.intercalate_cons_cons]
    | cons d ds =>
      rw [List.cons_append, List.cons_append, List.intercalate_cons_cons, ← List.cons_append, ih (by simp), List.intercalate_cons_cons]
      simp

/-- The directory of a path that ends in a name. -/
theorem normPath_dirPath {n : NPath} (hn : n.Normal) {cs : List Str} {b : Str} (hc : n.comps = cs ++ [b]) (hb : Plain b) :
    normPath (dirPath n.render) = ⟨n.rooted, cs⟩ := by
  obtain ⟨r, comps⟩ := n
  simp only at hc
  subst hc
  have hn' : NPath.Normal ⟨r, cs⟩ := by
    obtain ⟨k, rest, he, hp, hr⟩ := hn
    simp only at he hr
    rcases List.eq_nil_or_concat rest with rfl | ⟨rest', l, rfl⟩
    · rw [List.append_nil] at he
      have hb' : b ∈ List.replicate k c!".." := by rw [← he]; simp
      exact absurd (List.eq_of_mem_replicate hb') hb.2.2.2
    · rw [List.concat_eq_append, ← List.append_assoc] at he
      obtain ⟨h1, h2⟩ := List.append_inj' he rfl
      exact ⟨k, rest', h1, fun c hc => hp c (by simp [hc]), hr⟩
  unfold dirPath
  rw [normPath_cleanPath]
  by_cases hcs : cs = []
  · subst hcs
    cases r with
    | true =>
      rw [show NPath.render ⟨true, [] ++ [b]⟩ = ([] : Str) ++ '/' :: b by simp [NPath.render], dropWhile_reverse _ _ hb.2.1]
      rfl
    | false =>
      rw [show NPath.render ⟨false, [] ++ [b]⟩ = b by simp [NPath.render], dropWhile_reverse_none _ hb.2.1]
      rfl
  · cases r with
    | true =>
      rw [show NPath.render ⟨true, cs ++ [b]⟩ = NPath.render ⟨true, cs⟩ ++ '/' :: b by
        simp only [NPath.render, if_true]; rw [intercalate_concat cs b hcs]; rfl, dropWhile_reverse _ _ hb.2.1]
      rw [normPath_slash _ (by simp [NPath.render]), normPath_render hn']
    | false =>
      rw [show NPath.render ⟨false, cs ++ [b]⟩ = NPath.render ⟨false, cs⟩ ++ '/' :: b by
        simp only [NPath.render]; rw [intercalate_concat cs b hcs]; simp [hcs], dropWhile_reverse _ _ hb.2.1]
      rw [normPath_slash, normPath_render hn']
      intro e
      have := normPath_render hn'
      rw [e] at this
      simp only [normPath, NPath.mk.injEq] at this
      exact hcs this.2.symm

end Run

/-- C89: the configuration read is what the file says, with the directory given in it; if it gives none, with the directory the
configuration file is in. -/
theorem C89_directory (T : TextLayer) (cwd : Loc) (fs : Fs) (path : Str) (cfg : GenConfig) (hcwd : ∀ a, a <+: cwd → fs.file a = none)
    (hdd : c!".." ∉ cwd) (h : loadConfig T cwd fs (cleanPath path) = .ok cfg) :
    ∃ c raw, fs.file (locate cwd path) = some c ∧ ConfigXml.Says T.names (T.text c) raw ∧ cfg.cpps = raw.cpps ∧
      (raw.directory ≠ [] → cfg.directory = raw.directory) ∧
      (raw.directory = [] → locate cwd cfg.directory = (locate cwd path).dropLast) := by
  unfold loadConfig at h
  rw [locate_cleanPath] at h
  cases hf : fs.file (locate cwd path) with
  | none => simp only [hf] at h; cases h
  | some c =>
    simp only [hf] at h
    cases hp : T.parseConfig (T.text c) with
    | error e => simp only [hp] at h; cases h
    | ok raw =>
      simp only [hp, Except.ok.injEq] at h
      refine ⟨c, raw, rfl, (ConfigProofs.parseConfig_iff _ _ _).1 hp, ?_, ?_, ?_⟩
      · rw [← h]; split <;> rfl
      · intro hd; rw [← h, if_neg hd]
      · intro hd
        rw [← h, if_pos hd]
        simp only
        have hnorm := normPath_normal path
        obtain ⟨k, rest, hk, hpl, hr⟩ := hnorm
        rcases List.eq_nil_or_concat rest with rfl | ⟨rest', b, rfl⟩
        · exfalso
          rw [List.append_nil] at hk
          have hpre : locate cwd path <+: cwd := by
            unfold locate
            cases hroot : (normPath path).rooted with
            | true => rw [hk, hr hroot]; simp
            | false =>
              rw [hk]
              simp only [Bool.false_eq_true, if_false]
              rcases cleanSteps_down cwd k with h1 | h1
              · rw [h1]; exact List.take_prefix _ _
              · exact absurd h1 hdd
          rw [hcwd _ hpre] at hf
          cases hf
        · rw [List.concat_eq_append, ← List.append_assoc] at hk
          have hb : Plain b := hpl b (by simp)
          have hdir := Run.normPath_dirPath (normPath_normal path) hk hb
          unfold locate
          rw [show dirPath (cleanPath path) = dirPath (normPath path).render from rfl, hdir, hk]
          simp only
          split
          · simp
          · rw [List.foldl_append (l' := [b]), List.foldl_cons, List.foldl_nil, cleanStep_plain _ _ hb]
            simp

example : let fs : Fs := ⟨fun a => decide (a <+: [c!"home", c!"u"]), fun a => if a = [c!"home", c!"cfg.xml"] then some (.user c!"<rtcg-gen/>") else none⟩
    let T : TextLayer := ⟨⟨fun _ => false, fun _ => false⟩, ⟨id, id, fun _ => false, fun _ => false⟩, []⟩
    (∀ a, a <+: [c!"home", c!"u"] → fs.file a = none) ∧
    loadConfig T [c!"home", c!"u"] fs (cleanPath c!".././cfg.xml") = .ok ⟨[], c!".."⟩ := by
  refine ⟨fun a ha => if_neg ?_, by decide +kernel⟩
  rintro rfl
  exact absurd ha (by decide)

/-! ### C90 -/

/-- C90: rtcg-read-traces and rtcg-make-stms read standard input exactly if their argument is `-` or left out, and otherwise the file. -/
theorem C90_stdin (T : TextLayer) (env : Env) (path text : Str) :
    readFileOrStdin T env path = .ok text ↔ Reads T env path text := reads_iff

/-- C90, partly: rtcg-gen reads standard input exactly if its argument is `-` after cleaning; otherwise it reads the file its argument
names. -/
theorem C90_gen_partial (T : TextLayer) (env : Env) (argv : List Str) (config : Str) (suite : StmSuite) :
    GivenSuite T env argv config suite ↔ ∃ input text j, (argv = [config] ∧ input = c!"-" ∨ argv = [config, input]) ∧
      ((normPath input = ⟨false, [c!"-"]⟩ ∧ text = env.stdin) ∨
        (normPath input ≠ ⟨false, [c!"-"]⟩ ∧ ∃ c, env.fs.file (locate env.cwd input) = some c ∧ text = T.text c)) ∧
      Json.parse text = .ok j ∧ Json.decodeStmSuite j = .ok suite := by
  have hd : ∀ input, cleanPath input = c!"-" ↔ normPath input = ⟨false, [c!"-"]⟩ := by
    intro input
    constructor
    · intro h
      rw [← normPath_cleanPath, h]; decide
    · intro h
      rw [cleanPath, h]; decide
  have hne : ∀ input, cleanPath input ≠ [] := by
    intro input h
    have hn := normPath_normal input
    unfold cleanPath NPath.render at h
    split at h
    · cases h
    · split at h
      · cases h
      · rename_i hc
        obtain ⟨c, cs, hcs⟩ := List.exists_cons_of_ne_nil hc
        have := (normal_noSlash hn c (by rw [hcs]; simp)).2
        rw [hcs] at h
        cases cs with
        | nil => simp at h; exact this h
        | cons d ds =>
          rw [List.intercalate_cons_cons] at h
          simp at h
  unfold GivenSuite Reads
  constructor
  · rintro ⟨input, text, j, ha, h1, h2⟩
    refine ⟨input, text, j, ha, ?_, h2⟩
    rcases h1 with ⟨h1, h3⟩ | ⟨h1, _, c, h3, h4⟩
    · exact .inl ⟨(hd input).1 h1, h3⟩
    · exact .inr ⟨fun e => h1 ((hd input).2 e), c, by rw [← locate_cleanPath]; exact h3, h4⟩
  · rintro ⟨input, text, j, ha, h1, h2⟩
    refine ⟨input, text, j, ha, ?_, h2⟩
    rcases h1 with ⟨h1, h3⟩ | ⟨h1, c, h3, h4⟩
    · exact .inl ⟨(hd input).2 h1, h3⟩
    · exact .inr ⟨fun e => h1 ((hd input).1 e), hne input, c, by rw [locate_cleanPath]; exact h3, h4⟩

/-- C90 is false of rtcg-gen: a file called `-` in the working directory cannot be read even when named with its
directory, which stands for standard input too, although the other programs then read it. -/
theorem C90_false (T : TextLayer) (env : Env) (clean : Bool) (output config : Str) (c : Content)
    (hf : env.fs.file (locate env.cwd c!"./-") = some c) :
    gen T env clean output [config, c!"./-"] = gen T env clean output [config, c!"-"] ∧
    readFileOrStdin T env c!"./-" = .ok (T.text c) ∧ readFileOrStdin T env c!"-" = .ok env.stdin := by
  refine ⟨?_, ?_, rfl⟩
  · unfold gen
    rw [C53_genArgs, C53_genArgs]
    simp only [genAction]
    rw [show cleanPath c!"./-" = cleanPath c!"-" by decide]
  · unfold readFileOrStdin
    rw [if_neg (by decide), if_neg (by decide), hf]

/-! ### C91 -/

namespace Run

theorem parse_nil : Json.parse [] = throwErr .eof := rfl

theorem makeStms_nothing (T : TextLayer) (env : Env) (p : Str) :
    makeStms T { env with stdin := [] } [p, c!"-"] = ([], throwErr .eof) := by
  unfold makeStms
  rw [show Cli.parseFileArgument [p, c!"-"] 2 = .ok c!"-" from rfl]
  rfl

theorem gen_nothing (T : TextLayer) (env : Env) (clean : Bool) (output config : Str) (r : List Str) (hr : r = [] ∨ r = [c!"-"]) :
    gen T { env with stdin := [] } clean output (config :: r) = (env.fs, throwErr .eof) := by
  unfold gen
  rw [C53_genArgs]
  rcases hr with rfl | rfl <;> rfl

theorem flags_two (f f' : Flags) (config : Str) (rest : List Str) (h : parseFlags f [config, c!"-"] = .ok (f', rest)) :
    rest = [] ∨ rest = [c!"-"] ∨ rest = [config, c!"-"] := by
  have h := flags_sound _ _ (Nat.le_refl _) f f' rest h
  generalize hx : (f.clean, f.output) = x at h
  generalize hy : (f'.clean, f'.output) = y at h
  generalize ha : [config, c!"-"] = args at h
  have hend : ∀ a r, FlagsEnd a r → r = a ∨ a = c!"--" :: r := by
    intro a r h
    cases h with
    | stop => exact .inr rfl
    | _ => exact .inl rfl
  have hone : ∀ x y r, CommandLine [c!"-"] x y r → r = [c!"-"] := by
    intro x y r h
    generalize ha : [c!"-"] = a at h
    cases h with
    | done h =>
      rcases hend _ _ h with h | h
      · rw [h]
      · rw [← ha] at h; exact absurd (List.cons.inj h).1 (by decide)
    | flag h h' =>
      cases h with
      | clean hd => rcases hd with rfl | rfl <;> simp at ha
      | cleanIs hd hv => rcases hd with rfl | rfl <;> simp at ha
      | output hd => simp at ha
      | outputIs hd => rcases hd with rfl | rfl <;> simp at ha
  cases h with
  | done h =>
    rcases hend _ _ h with h | h
    · rw [h, ← ha]; exact .inr (.inr rfl)
    · rw [← ha] at h; exact .inr (.inl (List.cons.inj h).2.symm)
  | flag h h' =>
    cases h with
    | clean hd => rw [List.singleton_append] at ha; rw [← (List.cons.inj ha).2] at h'; exact .inr (.inl (hone _ _ _ h'))
    | cleanIs hd hv => rw [List.singleton_append] at ha; rw [← (List.cons.inj ha).2] at h'; exact .inr (.inl (hone _ _ _ h'))
    | outputIs hd => rw [List.singleton_append] at ha; rw [← (List.cons.inj ha).2] at h'; exact .inr (.inl (hone _ _ _ h'))
    | output hd =>
      rw [List.cons_append, List.singleton_append] at ha
      have := (List.cons.inj (List.cons.inj ha).2).2
      rw [← this] at h'
      have hnil : ∀ a x y r, CommandLine a x y r → a = [] → r = [] := by
        intro a x y r h e
        cases h with
        | done h => subst e; cases h; rfl
        | flag h h' => cases h <;> cases e
      exact .inl (hnil _ _ _ _ h' rfl)

/-- Without a suite on standard input, the last program of the script changes nothing. -/
theorem genMain_nothing (T : TextLayer) (env : Env) (config : Str) : (genMain T { env with stdin := [] } [config, c!"-"]).1 = env.fs := by
  unfold genMain
  cases hf : parseFlags ⟨false, c!"out"⟩ [config, c!"-"] with
  | error code => rfl
  | ok p =>
    obtain ⟨f, argv⟩ := p
    simp only
    rcases flags_two _ _ _ _ hf with rfl | rfl | rfl
    · rfl
    · rw [gen_nothing T env _ _ c!"-" [] (.inl rfl)]
    · rw [gen_nothing T env _ _ config [c!"-"] (.inr rfl)]

theorem genMain_word (T : TextLayer) (env : Env) (config : Str) (hc : config.head? ≠ some '-') :
    genMain T env [config, c!"-"] =
      ((gen T env false c!"out" [config, c!"-"]).1, exitCode (gen T env false c!"out" [config, c!"-"]).2) := by
  unfold genMain
  rw [end_ok (.word hc)]

theorem exitCode_zero {r : Res Unit} : exitCode r = 0 ↔ r = .ok () := by
  match r with
  | .ok () => simp [exitCode]
  | .error (.err e) => simp [exitCode]
  | .error .panic => simp [exitCode]

end Run

/-- C91: the script with one argument reads traces from standard input; with none, or more than two, it does nothing and fails. -/
theorem C91_usage (T : TextLayer) (env : Env) (config : Str) :
    script T env [config] = script T env [config, c!"-"] ∧
    ∀ args, args.length = 0 ∨ 2 < args.length → script T env args = (env.fs, 1) := by
  refine ⟨rfl, fun args h => ?_⟩
  match args, h with
  | [], _ => rfl
  | [_], h => simp at h
  | [_, _], h => simp at h
  | _ :: _ :: _ :: _, _ => rfl

/-- C91: if the traces or the suite made of them are refused, the script changes no file; and it fails with exit code 1 unless its first
argument looks like a flag. -/
theorem C91_refused (T : TextLayer) (env : Env) (config trace : Str)
    (h : ¬ ∃ tests stms, readTraces T env [c!"./bin/rtcg-read-traces", trace] = (tests, .ok ()) ∧
      makeStms T { env with stdin := tests } [c!"./bin/rtcg-make-stms", c!"-"] = (stms, .ok ())) :
    (script T env [config, trace]).1 = env.fs ∧ (config.head? ≠ some '-' → (script T env [config, trace]).2 = 1) := by
  have h2 : (makeStms T { env with stdin := (readTraces T env [c!"./bin/rtcg-read-traces", trace]).1 }
      [c!"./bin/rtcg-make-stms", c!"-"]).1 = [] := by
    by_cases h1 : (readTraces T env [c!"./bin/rtcg-read-traces", trace]).2 = .ok ()
    · refine (C84_make_stms T _ _).1 fun h2 => h ⟨_, _, Prod.ext rfl h1, Prod.ext rfl h2⟩
    · rw [(C84_read_traces T env _).1 h1, Run.makeStms_nothing]
  have hs : script T env [config, trace] = genMain T { env with stdin := [] } [config, c!"-"] := by
    show pipeline T env config trace = _
    unfold pipeline
    simp only
    rw [h2]
  rw [hs]
  refine ⟨Run.genMain_nothing T env config, fun hc => ?_⟩
  rw [Run.genMain_word T _ config hc, Run.gen_nothing T env _ _ config [c!"-"] (.inr rfl)]
  rfl

/-- C91, partly: unless its first argument looks like a flag, the script ends with exit code 0 exactly if each program succeeded, on what
the one before it wrote.  The property asks it of every argument. -/
theorem C91_exit_partial (T : TextLayer) (env : Env) (config trace : Str) (hc : config.head? ≠ some '-') (fs' : Fs) :
    script T env [config, trace] = (fs', 0) ↔ ∃ tests stms, readTraces T env [c!"./bin/rtcg-read-traces", trace] = (tests, .ok ()) ∧
      makeStms T { env with stdin := tests } [c!"./bin/rtcg-make-stms", c!"-"] = (stms, .ok ()) ∧
      gen T { env with stdin := stms } false c!"out" [config, c!"-"] = (fs', .ok ()) := by
  have key : ∀ tests stms, readTraces T env [c!"./bin/rtcg-read-traces", trace] = (tests, .ok ()) →
      makeStms T { env with stdin := tests } [c!"./bin/rtcg-make-stms", c!"-"] = (stms, .ok ()) →
      (script T env [config, trace] = (fs', 0) ↔ gen T { env with stdin := stms } false c!"out" [config, c!"-"] = (fs', .ok ())) := by
    intro tests stms h1 h2
    show pipeline T env config trace = _ ↔ _
    unfold pipeline
    simp only
    rw [h1, h2]
    simp only
    rw [Run.genMain_word T _ config hc, Prod.mk.injEq, Run.exitCode_zero]
    constructor
    · rintro ⟨h3, h4⟩; exact Prod.ext h3 h4
    · intro h; rw [h]; exact ⟨rfl, rfl⟩
  constructor
  · intro h
    refine Classical.byContradiction fun hn => ?_
    by_cases he : ∃ tests stms, readTraces T env [c!"./bin/rtcg-read-traces", trace] = (tests, .ok ()) ∧
      makeStms T { env with stdin := tests } [c!"./bin/rtcg-make-stms", c!"-"] = (stms, .ok ())
    · obtain ⟨tests, stms, h1, h2⟩ := he
      exact hn ⟨tests, stms, h1, h2, (key _ _ h1 h2).1 h⟩
    · have := (C91_refused T env config trace he).2 hc
      rw [h] at this
      exact absurd (show 0 = 1 from this) (by decide)
  · rintro ⟨tests, stms, h1, h2, h3⟩
    exact (key _ _ h1 h2).2 h3

/-- C91 is false as it stands: a first argument that asks rtcg-gen for help makes the script succeed whatever the traces are. -/
theorem C91_false (T : TextLayer) (env : Env) (trace : Str) : script T env [c!"-h", trace] = (env.fs, 0) := by
  show pipeline T env c!"-h" trace = _
  unfold pipeline
  simp only
  unfold genMain
  rw [show parseFlags ⟨false, c!"out"⟩ [c!"-h", c!"-"] = .error 0 by decide +kernel]

theorem Templates.run_ok {cwd : Loc} {ops : List Op} {fs fs' : Fs} (h : Templates.run cwd fs ops = (fs', .ok ())) :
    Gen.run cwd fs ops = (fs', .ok ()) := by
  induction ops generalizing fs with
  | nil => exact h
  | cons op ops ih =>
    unfold Templates.run Templates.runOp at h
    unfold Gen.run
    cases hr : Gen.runOp cwd fs op with
    | error e => simp only [hr] at h; simp at h
    | ok f =>
      simp only [hr] at h ⊢
      cases op with
      | mkdir p => exact ih h
      | copy s d => exact ih h
      | write p c =>
        simp only at h
        cases hx : Templates.execute c with
        | error e => simp only [hx] at h; simp at h
        | ok u => simp only [hx] at h; exact ih h

/-- The traces file read by the script. -/
theorem readTraces_good (T : TextLayer) (env : Env) (p trace file : Str) (traces : List Forbidden) (hr : Reads T env trace file)
    (h : Forbidden.read file = some (.ok traces)) (hlen : ∀ f ∈ traces, f.pre.length ≤ 4996) :
    ∃ j s, readTracesProgram file = .ok j ∧ Json.write j = .ok s ∧ readTraces T env [p, trace] = (s, .ok ()) := by
  obtain ⟨j, hj, hi⟩ := C87_written_iff_partial file traces h
  obtain ⟨s, hs⟩ := hi.2 hlen
  exact ⟨j, s, hj, hs, ((C84_read_traces T env _).2 s).2 ⟨trace, file, j, .inr ⟨p, rfl⟩, hr, ⟨traces, h⟩, hj, hs⟩⟩

/-- C91: run on a good traces file — every event with a channel name and a value, consistent types, plain test names, no trace of more than
4997 events — and a configuration with distinct variants, if the script ends with exit code 0, then there is for every trace and variant
a main.cpp whose program ends with exit code 1 exactly when the callbacks that count begin with the whole trace. -/
theorem C91_end_to_end (T : TextLayer) (env : Env) (config trace file : Str) (traces : List Forbidden) (fs' : Fs)
    (hc : config.head? ≠ some '-') (hr : Reads T env trace file) (h : Forbidden.read file = some (.ok traces))
    (hev : ∀ f ∈ traces, ∀ e ∈ eventsOf f, e.channel.name ≠ [] ∧ e.value ≠ .none)
    (hty : ¬ ∃ chan, Conflict (fun ty => ∃ f ∈ traces, TraceCarries f chan ty))
    (hpl : ∀ f ∈ traces, f.name = [] ∨ Plain f.name)
    (hrun : script T env [config, trace] = (fs', 0)) :
    ∃ cfg named, loadConfig T env.cwd env.fs (cleanPath config) = .ok cfg ∧ Forbidden.nameAll traces = some named ∧
      ((cfg.cpps.map (·.variant)).Nodup → ∀ name f, (name, f) ∈ named → ∀ c ∈ cfg.cpps, ∃ m tc ctx,
        fs'.file (locate env.cwd c!"out" ++ [c.variant.string, c!"src", name, c!"src", c!"main.cpp"]) = some (.mainCpp c.variant name m tc ctx) ∧
        ∀ cbs, (Harness.exitCode (Harness.run m cbs) = 1 ↔ Spec.script f <+: cbs.filter (counts f)) ∧
          (GoMap.get? (Harness.run m cbs).verdict name = some oFail ↔ Spec.script f <+: cbs.filter (counts f))) := by
  obtain ⟨tests, stms, h1, h2, h3⟩ := (C91_exit_partial T env config trace hc fs').1 hrun
  obtain ⟨j1, j2, suite, named, e1, e2, e3, e4, e5⟩ := C72_end_to_end file traces h hev hty hpl
  obtain ⟨_, file', j1', ha, hr', _, hj1, hw1⟩ := ((C84_read_traces T env _).2 tests).1 h1
  rcases ha with ⟨_, ha, _⟩ | ⟨_, ha⟩
  · simp at ha
  cases ha
  rw [← reads_iff] at hr hr'
  rw [hr] at hr'; cases hr'
  rw [e1] at hj1; cases hj1
  obtain ⟨_, text2, input, j2', ha, hr2, hp2, _, hj2, hw2⟩ := ((C84_make_stms T _ _).2 stms).1 h2
  rcases ha with ⟨_, ha, _⟩ | ⟨_, ha⟩
  · simp at ha
  cases ha
  have htx : text2 = tests := by
    rcases hr2 with ⟨_, e⟩ | ⟨hx, _⟩
    · exact e
    · exact absurd rfl hx
  rw [htx] at hp2
  have hb1 := C85_read_back j1 tests [] (C85_programs.1 _ _ e1) hw1
  rw [List.append_nil] at hb1
  rw [hb1] at hp2; cases hp2
  rw [e2] at hj2; cases hj2
  have hb2 := C85_read_back j2 stms [] (C85_programs.2 _ _ e2).1 hw2
  rw [List.append_nil] at hb2
  have hg : GivenJson T { env with stdin := stms } [config, c!"-"] config j2 suite :=
    ⟨c!"-", stms, .inr rfl, .inl ⟨by decide, rfl⟩, hb2, e3⟩
  rw [Run.gen_given hg] at h3
  simp only [Gen.maybeClean, Bool.not_false, if_true] at h3
  unfold generate at h3
  cases hl : loadConfig T env.cwd env.fs (cleanPath config) with
  | error e => simp only [hl] at h3; simp at h3
  | ok cfg =>
    simp only [hl] at h3
    rw [Templates.runRead_none (Json.makeStms_has e2)] at h3
    refine ⟨cfg, named, rfl, e4, fun hv name f hf c hcc => ?_⟩
    obtain ⟨m, tc, ctx, hm, hcb⟩ := e5 suite (.refl _) (.refl _) env.cwd env.fs fs' cfg (cleanPath c!"out") hv (Templates.run_ok h3) name f hf c hcc
    rw [locate_cleanPath] at hm
    exact ⟨m, tc, ctx, hm, hcb⟩

/-- C91: … and it does end with exit code 0 if there is nothing where the output goes and every C++ configuration says how to convert some
channel of the traces and comes with the conversion code. -/
theorem C91_succeeds (T : TextLayer) (env : Env) (config trace file : Str) (traces : List Forbidden) (cfg : GenConfig)
    (hc : config.head? ≠ some '-') (hr : Reads T env trace file) (h : Forbidden.read file = some (.ok traces))
    (hlen : ∀ f ∈ traces, f.pre.length ≤ 4996)
    (hev : ∀ f ∈ traces, ∀ e ∈ eventsOf f, e.channel.name ≠ [] ∧ e.value ≠ .none)
    (hty : ¬ ∃ chan, Conflict (fun ty => ∃ f ∈ traces, TraceCarries f chan ty))
    (hpl : ∀ f ∈ traces, f.name = [] ∨ Plain f.name)
    (hcfg : loadConfig T env.cwd env.fs (cleanPath config) = .ok cfg) (hv : (cfg.cpps.map (·.variant)).Nodup)
    (hempty : EmptyAt env.fs (locate env.cwd c!"out"))
    (hsrc : ∀ c ∈ cfg.cpps, ¬ Inside (locate env.cwd c!"out") (locate env.cwd cfg.directory ++ conversionFile c))
    (hconv : ∀ c ∈ cfg.cpps, (∃ ch ∈ c.channels, ∃ f ∈ traces, ∃ e ∈ eventsOf f, e.channel.name = ch.name) ∧
      (env.fs.file (locate env.cwd cfg.directory ++ conversionFile c)).isSome) :
    (script T env [config, trace]).2 = 0 := by
  obtain ⟨j1, s1, e1, hw1, h1⟩ := readTraces_good T env c!"./bin/rtcg-read-traces" trace file traces hr h hlen
  obtain ⟨j1', j2, suite, named, e1', e2, e3, e4, e5, _, e7⟩ := C57_pipeline file traces h hev hty
  rw [e1] at e1'; cases e1'
  obtain ⟨named', j1', s', vs, g1, g2, g3, g4, g5, g6, g7⟩ := read_pipeline h fun f hf e he => (hev f hf e he).1
  rw [e1] at g4; cases g4
  obtain ⟨hn2, s2, hw2⟩ := C85_programs.2 _ _ e2
  have hb1 := C85_read_back j1 s1 [] (C85_programs.1 _ _ e1) hw1
  have hb2 := C85_read_back j2 s2 [] hn2 hw2
  rw [List.append_nil] at hb1 hb2
  have h2 : makeStms T { env with stdin := s1 } [c!"./bin/rtcg-make-stms", c!"-"] = (s2, .ok ()) :=
    ((C84_make_stms T _ _).2 s2).2 ⟨c!"-", s1, j1, j2, .inr ⟨_, rfl⟩, .inl ⟨rfl, rfl⟩, hb1, ⟨s', vs, g5, g6⟩, e2, hw2⟩
  have hmade : MadeFrom vs suite := by
    refine C73_make_stms j1 j2 s' vs suite g5 g6 e2 ?_ e3
    rintro ⟨k, t⟩ ht
    obtain ⟨⟨k', f⟩, hf, e⟩ := List.mem_map.1 (g7.mem_iff.2 ht)
    simp only [Prod.mk.injEq] at e
    obtain ⟨rfl, rfl⟩ := e
    refine (allEvents_expand f k').2 fun x hx => (hev f ?_ x hx).1
    rw [← g3]; exact List.mem_map.2 ⟨_, hf, rfl⟩
  have hg : GivenJson T { env with stdin := s2 } [config, c!"-"] config j2 suite :=
    ⟨c!"-", s2, .inr rfl, .inl ⟨by decide, rfl⟩, hb2, e3⟩
  have hplain : PlainNames suite := by
    rintro ⟨k, m'⟩ hk
    have := e5 k
    rw [GoMap.get?_of_mem hmade.2.2.2.2.1 hk] at this
    obtain ⟨f', hf'⟩ := Option.isSome_iff_exists.1 this.symm
    exact nameAll_plain e4 hpl _ (GoMap.mem_of_get? hf')
  have hkey : ∀ c ∈ cfg.cpps, needsConversion suite c := by
    intro c hcc
    obtain ⟨⟨ch, hch, f, hf, e, he, hname⟩, _⟩ := hconv c hcc
    refine ⟨ch, hch, ?_⟩
    cases hget : suite.types.get? ch.name with
    | some ty => exact List.mem_map.2 ⟨_, GoMap.mem_of_get? hget, rfl⟩
    | none => exact absurd ⟨_, f, hf, e, he, hname, rfl⟩ ((e7 ch.name).1.1 hget)
  have hrun : (Gen.run env.cwd env.fs (Gen.ops cfg (cleanPath c!"out") suite)).2 = .ok () := by
    rw [← locate_cleanPath] at hempty hsrc
    exact (C50_succeeds_from_empty_partial env.cwd env.fs cfg (cleanPath c!"out") suite hplain hmade.2.2.2.1 hv hempty
      (fun c hcc _ => hsrc c hcc) _ _ (List.Perm.refl _) (List.Perm.refl _)).2 fun c hcc => ⟨.inl (hkey c hcc), fun _ => (hconv c hcc).2⟩
  have hgen := C73_generation env.cwd env.fs false c!"out" cfg vs suite hmade
  simp only [Templates.action, Gen.action, Gen.maybeClean, Bool.not_false, if_true] at hgen
  have h3 : (gen T { env with stdin := s2 } false c!"out" [config, c!"-"]).2 = .ok () := by
    rw [Run.gen_given hg]
    simp only [Gen.maybeClean, Bool.not_false, if_true]
    unfold generate
    simp only [hcfg]
    rw [Templates.runRead_none (Json.makeStms_has e2), hgen]; exact hrun
  have := (C91_exit_partial T env config trace hc _).2 ⟨s1, s2, h1, h2, Prod.ext rfl h3⟩
  rw [this]

theorem loadConfig_given {T : TextLayer} {cwd : Loc} {fs : Fs} {path text : Str} {cfg : GenConfig}
    (hf : fs.file (locate cwd path) = some (.user text)) (hp : T.parseConfig text = .ok cfg) (hd : cfg.directory ≠ []) :
    loadConfig T cwd fs path = .ok cfg := by
  unfold loadConfig
  rw [hf]
  simp only [TextLayer.text, hp]
  rw [if_neg hd]

/-- A configuration as a user may write it. -/
def exCfgText : Str := c!"<rtcg-gen>\n  <!-- a comment -->\n  <directory>cfg</directory>\n  <cpp variant=\"ros\"><channel name='a' type=\"Msg\"/>" ++
  c!"<makefile/><catkin/></cpp>\n</rtcg-gen>\n"

/-- Not vacuous: a directory with a traces file, a configuration and the conversion code. -/
example (U : Unicode) (date : Str) : ∃ (T : TextLayer) (env : Env), T.unicode = U ∧ T.date = date ∧
    (script T env [c!"cfg.xml", c!"traces.csv"]).2 = 0 := by
  let T : TextLayer := ⟨⟨fun _ => false, fun _ => false⟩, U, date⟩
  let fs : Fs := ⟨fun a => decide (a = []), fun a =>
    if a = [c!"traces.csv"] then some (.user exFile) else if a = [c!"cfg.xml"] then some (.user exCfgText)
    else if a = [c!"cfg", c!"ros", c!"src", c!"convert", c!"convert.cpp"] then some (.user c!"code") else none⟩
  refine ⟨T, ⟨[], fs, []⟩, rfl, rfl, ?_⟩
  refine C91_succeeds T ⟨[], fs, []⟩ c!"cfg.xml" c!"traces.csv" exFile exTraces exCfg (by decide) ?_ exFile_read (by decide) exTraces_events
    exTraces_types (by decide) ?_ (by decide) ?_ ?_ ?_
  · refine .inr ⟨by decide, by decide, .user exFile, ?_, rfl⟩
    rw [show locate [] c!"traces.csv" = [c!"traces.csv"] by decide]
    rfl
  · refine loadConfig_given (text := exCfgText) ?_ (show Xml.parseConfig ⟨fun _ => false, fun _ => false⟩ exCfgText = _ by decide +kernel)
      (by decide)
    rw [show locate [] (cleanPath c!"cfg.xml") = [c!"cfg.xml"] by decide]
    rfl
  · rw [show locate [] c!"out" = [c!"out"] by decide]
    have hno : ∀ a : Loc, [c!"out"] <+: a → fs.file a = none := by
      rintro a ⟨r, rfl⟩
      simp only [fs, List.singleton_append, List.cons.injEq]
      rw [if_neg (fun h => absurd h.1 (by decide)), if_neg (fun h => absurd h.1 (by decide)), if_neg (fun h => absurd h.1 (by decide))]
    refine ⟨fun a ha => ?_, fun a ha hne => ⟨hno a ha, ?_⟩⟩
    · rcases List.prefix_cons_iff.1 ha with rfl | ⟨t, rfl, ht⟩
      · decide
      · exact hno _ (by rw [List.prefix_nil.1 ht])
    · obtain ⟨r, rfl⟩ := ha
      simp [fs]
  · intro c hcc
    rw [List.mem_singleton.1 hcc]; decide
  · intro c hcc
    rw [List.mem_singleton.1 hcc]
    exact ⟨⟨⟨c!"a", c!"Msg"⟩, by decide, exTraces[0], by simp [exTraces], ⟨⟨c!"a", .in_⟩, .int 1⟩, by simp [exTraces, eventsOf], rfl⟩, by decide⟩

end Rtcg
