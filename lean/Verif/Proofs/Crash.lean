import Verif.Proofs.JsonForm
import Verif.Proofs.Calm
import Verif.Props.Run

/-
Which inputs make the programs panic.
-/

namespace Rtcg.Crash

open Rtcg Rtcg.Json Rtcg.Spec Rtcg.Spec.JsonForm Rtcg.XmlFail Rtcg.Program Rtcg.Programs Rtcg.CalmProofs

/-! ### the last field -/

theorem last_iff {p : Str → Bool} {P : Str → Prop} (h : ∀ k, p k = true ↔ P k) (fs : List (Str × Json)) (j : Json) :
    ((fs.filter fun f => p f.1).getLast?).map (·.2) = some j ↔ Last P fs j := by
  constructor
  · intro he
    rw [Option.map_eq_some_iff] at he
    obtain ⟨⟨k, j'⟩, hl, rfl⟩ := he
    obtain ⟨ys, hys⟩ := List.getLast?_eq_some_iff.1 hl
    have hsub : ∀ (fs ys : List (Str × Json)), (fs.filter fun f => p f.1) = ys ++ [(k, j')] →
        ∃ pre post, fs = pre ++ (k, j') :: post ∧ p k = true ∧ ∀ f ∈ post, ¬ p f.1 = true := by
      intro fs
      induction fs with
      | nil => intro ys h; simp at h
      | cons f fs ih =>
        intro ys h
        by_cases hp : p f.1 = true
        · rw [List.filter_cons_of_pos (p := fun f : Str × Json => p f.1) hp] at h
          cases ys with
          | nil =>
            rw [List.nil_append, List.cons.injEq] at h
            obtain ⟨rfl, h⟩ := h
            refine ⟨[], fs, rfl, hp, fun f hf hpf => ?_⟩
            have : f ∈ fs.filter fun f => p f.1 := List.mem_filter.2 ⟨hf, hpf⟩
            rw [h] at this
            exact absurd this (by simp)
          | cons y ys =>
            rw [List.cons_append, List.cons.injEq] at h
            obtain ⟨pre, post, e, h1, h2⟩ := ih ys h.2
            exact ⟨f :: pre, post, by rw [e]; rfl, h1, h2⟩
        · rw [List.filter_cons_of_neg (p := fun f : Str × Json => p f.1) (by simpa using hp)] at h
          obtain ⟨pre, post, e, h1, h2⟩ := ih ys h
          exact ⟨f :: pre, post, by rw [e]; rfl, h1, h2⟩
    obtain ⟨pre, post, e, h1, h2⟩ := hsub fs ys hys
    exact ⟨pre, k, post, e, (h k).1 h1, fun f hf hP => h2 f hf ((h _).2 hP)⟩
  · rintro ⟨pre, key, post, rfl, hk, hp⟩
    have he : (post.filter fun f => p f.1) = [] := List.filter_eq_nil_iff.2 fun f hf hpf => hp f hf ((h _).1 hpf)
    rw [List.filter_append, List.filter_cons_of_pos (p := fun f : Str × Json => p f.1) (a := (key, j)) ((h key).2 hk), he]
    simp

theorem lastField_iff {name : Str} (hl : JsonForm.Letters name = true) (fs : List (Str × Json)) (j : Json) :
    lastField name fs = some j ↔ Last (Named name) fs j := last_iff (p := isField name) (P := Named name) (fun _ => JsonForm.isField_iff hl) fs j

theorem missingIn_iff {m : Json} : missingIn m = some .machine ↔
    m = .null ∨ ∃ gs js, m = .obj gs ∧ Last (Named c!"states") gs (.arr js) ∧ .null ∈ js := by
  have hn : ∀ xs : List Json, xs.any isNull = true ↔ .null ∈ xs := by
    intro xs
    rw [List.any_eq_true]
    constructor
    · rintro ⟨x, hx, h⟩
      cases x <;> first | exact hx | simp [isNull] at h
    · exact fun h => ⟨_, h, rfl⟩
  cases m with
  | null => exact ⟨fun _ => .inl rfl, fun _ => rfl⟩
  | obj gs =>
    have hl := fun j => lastField_iff (name := c!"states") (by decide) gs j
    unfold missingIn
    constructor
    · intro h
      right
      simp only at h
      cases hf : lastField c!"states" gs with
      | none => rw [hf] at h; cases h
      | some v =>
        rw [hf] at h
        cases v with
        | arr xs =>
          simp only at h
          by_cases ha : xs.any isNull = true
          · exact ⟨gs, xs, rfl, (hl _).1 hf, (hn xs).1 ha⟩
          · rw [if_neg ha] at h
            split at h <;> cases h
        | _ => cases h
    · rintro (h | ⟨_, js, e, h1, h2⟩)
      · cases h
      · cases e
        simp only [(hl _).2 h1]
        rw [if_pos ((hn js).2 h2)]
  | _ => simp [missingIn]

theorem missing_iff {j : Json} {test : Str} : missing j test = some .machine ↔ NullMachine j test := by
  unfold NullMachine
  cases j with
  | obj fs =>
    have hl := fun v => lastField_iff (name := c!"tests") (by decide) fs v
    have ht := fun ts v => last_iff (p := fun k => decide (k = test)) (P := (· = test)) (fun k => decide_eq_true_iff) ts v
    unfold missing
    simp only
    constructor
    · intro h
      cases hf : lastField c!"tests" fs with
      | none => rw [hf] at h; cases h
      | some v =>
        rw [hf] at h
        cases v with
        | obj ts =>
          simp only [Option.bind_eq_some_iff] at h
          obtain ⟨t, h1, h2⟩ := h
          refine ⟨fs, ts, t.2, rfl, (hl _).1 hf, (ht ts t.2).1 ?_, missingIn_iff.1 h2⟩
          rw [h1]; rfl
        | _ => cases h
    · rintro ⟨_, ts, m, e, h1, h2, h3⟩
      cases e
      have h2 := (ht ts m).2 h2
      rw [Option.map_eq_some_iff] at h2
      obtain ⟨t, e1, e2⟩ := h2
      simp only [(hl _).2 h1, e1, Option.bind_some, e2]
      exact missingIn_iff.2 h3
  | _ =>
    simp [missing]

/-! ### rtcg-read-traces -/

theorem readFile_calm (T : TextLayer) (env : Env) (path : Str) : Calm (readFileOrStdin T env path) := by
  unfold readFileOrStdin
  repeat' split
  all_goals first | exact calm_ok _ | exact calm_throw _

theorem arg_calm (argv : List Str) : Calm (Cli.parseFileArgument argv 2) := by
  cases h : Cli.parseFileArgument argv 2 with
  | ok p => exact calm_ok _
  | error e =>
    rcases arg_total argv with ⟨p, hp⟩ | h'
    · rw [arg_iff.2 hp] at h; cases h
    · rw [h] at h'; rw [h']; exact calm_throw _

theorem written_calm {r : Res Json} (h : Calm r) : Calm (written r).2 := by
  cases r with
  | error e => intro h'; exact h (by simpa [written] using h')
  | ok j =>
    unfold written
    simp only
    cases hw : Json.write j with
    | ok t => exact calm_ok _
    | error e => exact fun h' => write_calm j (by rw [hw]; simpa using h')

theorem readTracesProgram_calm (file : Str) : Calm (readTracesProgram file) := by
  have hr := C14_total file
  cases h : Forbidden.read file with
  | none => simp [h] at hr
  | some r =>
    cases r with
    | ok traces =>
      obtain ⟨j, hj, _⟩ := JsonText.readTraces_json h
      rw [hj]; exact calm_ok _
    | error f =>
      unfold readTracesProgram
      rw [h]
      simp only [Option.getD_some]
      intro he
      have he : f = .panic := by simpa using he
      rcases C14_errors file f h with e | e | e | e <;> rw [he] at e <;> cases e

theorem readTraces_calm (T : TextLayer) (env : Env) (argv : List Str) : Calm (readTraces T env argv).2 := by
  unfold readTraces
  split
  · rename_i h; exact calm_error (arg_calm argv) h
  · split
    · rename_i h; exact calm_error (readFile_calm T env _) h
    · exact written_calm (readTracesProgram_calm _)

/-! ### rtcg-make-stms -/

theorem nodePtr_none {j : Json} (h : decodeNodePtr j = .ok none) : j = .null := by
  cases j with
  | null => rfl
  | _ =>
    unfold decodeNodePtr at h
    simp only at h
    obtain ⟨_, _, e⟩ := map_ok h
    cases e

theorem suite_null {j : Json} {s : Validate.Suite} (h : decodeSuite j = .ok s) (k : Str) : (k, none) ∈ s ↔ NullTest j k := by
  unfold NullTest
  cases j with
  | obj fs =>
    obtain ⟨_, e, hwf, _, hin, hl⟩ := JsonForm.map_sound (dec := decodeNodePtr) (Says := fun j x => decodeNodePtr j = .ok x) (fun _ _ _ => id) h
    cases e
    constructor
    · intro hk
      obtain ⟨j, h1, h2⟩ := hl k none hk
      rw [nodePtr_none h2] at h1
      exact ⟨fs, rfl, h1⟩
    · rintro ⟨_, e, hlast⟩
      cases e
      obtain ⟨pre, _, post, hfs, rfl, hp⟩ := id hlast
      rename_i k
      obtain ⟨x, hx⟩ := hin (k, .null) (by rw [hfs]; simp)
      obtain ⟨j', h1, h2⟩ := hl k x hx
      rw [JsonForm.last_unique h1 hlast] at h2
      cases h2
      exact hx
  | null => cases h; simp
  | _ => simp [decodeSuite, decodeMap, throwErr] at h

theorem suite_wf {j : Json} {s : Validate.Suite} (h : decodeSuite j = .ok s) : GoMap.WF s := by
  cases j with
  | obj fs =>
    obtain ⟨_, _, hwf, _⟩ := JsonForm.map_sound (dec := decodeNodePtr) (Says := fun _ _ => True) (fun _ _ _ _ => trivial) h
    exact hwf
  | null => cases h; exact List.nodup_nil
  | _ => simp [decodeSuite, decodeMap, throwErr] at h

theorem makeStmsProgram_panic {j : Json} (h : makeStmsProgram j = .error .panic) : ∃ k, NullTest j k := by
  unfold makeStmsProgram at h
  cases hd : decodeSuite j with
  | error e =>
    rw [hd] at h
    simp only at h
    exact absurd (hd.trans (by simpa using h)) (decodeSuite_calm j)
  | ok s =>
    rw [hd] at h
    simp only at h
    have hw := suite_wf hd
    cases hf : Validate.fullSuite s with
    | error e =>
      rw [hf] at h
      simp only at h
      by_cases hn : ∀ k, (k, none) ∉ s
      · exact absurd (hf.trans (by simpa using h)) (C26_no_crash_partial s hw hn)
      · have : ∃ k, (k, none) ∈ s := Classical.byContradiction fun hc => hn fun k hk => hc ⟨k, hk⟩
        obtain ⟨k, hk⟩ := this
        exact ⟨k, (suite_null hd k).1 hk⟩
    | ok vs =>
      rw [hf] at h
      simp only at h
      obtain ⟨hwv, hval⟩ := C36_validated s hw vs hf
      obtain ⟨h1, h2⟩ := C36_success Builder.zero vs hwv hval
      by_cases hc : ∃ name, Conflict (SuiteCarries vs name)
      · rw [h2.2 hc] at h
        cases h
      · obtain ⟨b, r, hb⟩ := h1.2 hc
        rw [hb] at h
        exact absurd h (encodeStmSuite_calm r)

theorem makeStmsProgram_null {j : Json} {k : Str} (h : NullTest j k) : ∀ out, makeStmsProgram j ≠ .ok out := by
  intro out ho
  unfold makeStmsProgram at ho
  cases hd : decodeSuite j with
  | error e => rw [hd] at ho; cases ho
  | ok s =>
    rw [hd] at ho
    simp only at ho
    cases hf : Validate.fullSuite s with
    | error e => rw [hf] at ho; cases ho
    | ok vs =>
      have hk := (suite_null hd k).2 h
      have := ((C25_fullSuite_iff s (suite_wf hd) vs).1 hf).1
      rw [← this] at hk
      simp at hk

theorem makeStms_panic {T : TextLayer} {env : Env} {argv : List Str} (h : (makeStms T env argv).2 = .error .panic) :
    ∃ path text j k, InputArg argv path ∧ Reads T env path text ∧ Json.parse text = .ok j ∧ NullTest j k := by
  unfold makeStms at h
  cases ha : Cli.parseFileArgument argv 2 with
  | error e => rw [ha] at h; exact absurd (ha.trans (by simpa using h)) (arg_calm argv)
  | ok path =>
    rw [ha] at h
    simp only at h
    cases hr : readFileOrStdin T env path with
    | error e => rw [hr] at h; exact absurd (hr.trans (by simpa using h)) (readFile_calm T env path)
    | ok text =>
      rw [hr] at h
      simp only at h
      cases hp : Json.parse text with
      | error e => rw [hp] at h; exact absurd (hp.trans (by simpa using h)) (parse_calm text)
      | ok j =>
        rw [hp] at h
        simp only at h
        have : makeStmsProgram j = .error .panic := Classical.byContradiction fun hc => written_calm hc h
        obtain ⟨k, hk⟩ := makeStmsProgram_panic this
        exact ⟨path, text, j, k, arg_iff.1 ha, reads_iff.1 hr, hp, hk⟩

theorem encodeNode_obj {n : Node} {j : Json} (h : encodeNode n = .ok j) : j ≠ .null := by
  rintro rfl
  obtain ⟨id, tests, outcome, event, next⟩ := n
  rw [encodeNode] at h
  split at h
  · cases h
  · split at h <;> cases h

theorem encodeMap_mem {α : Type} {enc : α → Res Json} {m : GoMap Str α} {fs : List (Str × Json)} (h : encodeMap enc m = .ok (.obj fs)) :
    ∀ f ∈ fs, ∃ x ∈ m, enc x.2 = .ok f.2 := by
  unfold encodeMap at h
  obtain ⟨fs', hfs, e⟩ := Json.map_ok h
  cases e
  intro f hf
  have hf := (sortFields_perm fs').mem_iff.1 hf
  obtain ⟨i, hi, rfl⟩ := List.mem_iff_getElem.1 hf
  have h2 := encodeEntries_ok_iff.1 hfs
  have hi' : i < List.length m := by rw [h2.length_eq]; exact hi
  exact ⟨m[i], List.getElem_mem hi', (h2.get (i := i) hi' hi).2⟩

/-- No test that rtcg-read-traces writes is null. -/
theorem readTraces_null {file : Str} {j : Json} (h : readTracesProgram file = .ok j) (k : Str) : ¬ NullTest j k := by
  rintro ⟨fs, rfl, pre, key, post, rfl, _, _⟩
  unfold readTracesProgram at h
  split at h
  · cases h
  · split at h
    · cases h
    · rename_i named _
      obtain ⟨x, hx, he⟩ := encodeMap_mem h (key, .null) (by simp)
      obtain ⟨y, _, rfl⟩ := List.mem_map.1 hx
      exact encodeNode_obj he rfl

/-! ### rtcg-gen -/

theorem runOpRead_panic {missing : Str → Option Missing} {cwd : Loc} {fs : Fs} {op : Op}
    (h : (Templates.runOpRead missing cwd fs op).2 = .error .panic) :
    ∃ p v test m tc ctx, op = .write p (.mainCpp v test m tc ctx) ∧ missing test = some .machine := by
  unfold Templates.runOpRead at h
  split at h
  · rename_i p v test m tc ctx
    refine ⟨p, v, test, m, tc, ctx, rfl, ?_⟩
    cases hm : missing test with
    | none => rw [hm] at h; exact absurd h (templatesRunOp_calm _ _ _)
    | some x =>
      cases x with
      | machine => rfl
      | verdict =>
        rw [hm] at h
        simp only at h
        split at h
        · rename_i e he
          exact absurd (he.trans (by simpa using h)) (runOp_calm _ _ _)
        · cases h
  · exact absurd h (templatesRunOp_calm _ _ _)

theorem runRead_panic {missing : Str → Option Missing} {cwd : Loc} {ops : List Op} : ∀ {fs : Fs},
    (Templates.runRead missing cwd fs ops).2 = .error .panic →
    ∃ p v test m tc ctx, Op.write p (.mainCpp v test m tc ctx) ∈ ops ∧ missing test = some .machine := by
  induction ops with
  | nil => intro fs h; cases h
  | cons op ops ih =>
    intro fs h
    rw [Templates.runRead] at h
    rcases hr : Templates.runOpRead missing cwd fs op with ⟨fs1, e | _⟩
    · rw [hr] at h
      simp only [Except.error.injEq] at h
      subst h
      obtain ⟨p, v, test, m, tc, ctx, rfl, h2⟩ := runOpRead_panic (by rw [hr])
      exact ⟨p, v, test, m, tc, ctx, by simp, h2⟩
    · rw [hr] at h
      obtain ⟨p, v, test, m, tc, ctx, h1, h2⟩ := ih h
      exact ⟨p, v, test, m, tc, ctx, by simp [h1], h2⟩

theorem loadConfig_calm (T : TextLayer) (cwd : Loc) (fs : Fs) (path : Str) : Calm (loadConfig T cwd fs path) := by
  unfold loadConfig
  split
  · exact calm_throw _
  · split
    · rename_i h; exact calm_error (parseConfig_calm T.names _) h
    · exact calm_ok _

theorem gen_panic {T : TextLayer} {env : Env} {clean : Bool} {output : Str} {argv : List Str}
    (h : (gen T env clean output argv).2 = .error .panic) :
    ∃ config j suite test, GivenJson T env argv config j suite ∧ NullMachine j test := by
  by_cases hg : ∃ config suite, GivenSuite T env argv config suite
  · obtain ⟨config, suite, hg⟩ := hg
    obtain ⟨j, hj⟩ := hg.json
    refine ⟨config, j, suite, ?_⟩
    rw [Run.gen_given hj] at h
    have hc := maybeClean_calm env.cwd env.fs clean (cleanPath output)
    rcases hm : Gen.maybeClean env.cwd env.fs clean (cleanPath output) with ⟨fs1, e | _⟩
    · rw [hm] at h hc
      exact absurd h hc
    · rw [hm] at h
      simp only at h
      unfold generate at h
      cases hl : loadConfig T env.cwd fs1 (cleanPath config) with
      | error e =>
        rw [hl] at h
        exact absurd (hl.trans (by simpa using h)) (loadConfig_calm _ _ _ _)
      | ok cfg =>
        rw [hl] at h
        obtain ⟨p, v, test, m, tc, ctx, _, hmis⟩ := runRead_panic h
        exact ⟨test, hj, missing_iff.1 hmis⟩
  · exfalso
    have ha : ∀ config input, (argv = [config] ∧ input = c!"-" ∨ argv = [config, input]) →
        Calm (genAction T env clean output config input).2 := by
      intro config input ha
      have hs : ∀ r, readSuite T env (cleanPath input) ≠ .ok r := by
        rintro ⟨suite, mis⟩ hr
        obtain ⟨text, j, h1, h2, h3, _⟩ := Run.readSuite_iff.1 hr
        exact hg ⟨config, suite, input, text, j, ha, h1, h2, h3⟩
      have hrc : Calm (readSuite T env (cleanPath input)) := by
        unfold readSuite
        split
        · rename_i h; exact calm_error (readFile_calm T env _) h
        · split
          · rename_i h; exact calm_error (parse_calm _) h
          · split
            · rename_i h; exact calm_error (decodeStmSuite_calm _) h
            · exact calm_ok _
      unfold genAction
      simp only
      cases hr : readSuite T env (cleanPath input) with
      | error e => exact calm_error hrc hr
      | ok r => exact absurd hr (hs r)
    unfold gen at h
    rw [C53_genArgs] at h
    split at h
    · rename_i e he
      split at he
      · cases he
      · cases he
      · cases he; cases h
    · rename_i input config he
      split at he
      · cases he; exact ha _ _ (.inl ⟨rfl, rfl⟩) h
      · cases he; exact ha _ _ (.inr rfl) h
      · cases he

end Rtcg.Crash
