import Verif.Proofs.JsonDepth
import Verif.Model.Programs

/-
Nil pointers in suites read from JSON: there are none in what rtcg-make-stms writes.
-/

namespace Rtcg

namespace Json

theorem encodeMap_obj {α : Type} {enc : α → Res Json} {m : GoMap Str α} {j : Json} (h : encodeMap enc m = .ok j) :
    ∃ fs, j = .obj fs ∧ ∀ f ∈ fs, ∃ a, enc a = .ok f.2 := by
  unfold encodeMap at h
  obtain ⟨fs, hfs, rfl⟩ := Json.map_ok h
  refine ⟨_, rfl, fun f hf => ?_⟩
  have hf := (sortFields_perm fs).mem_iff.1 hf
  obtain ⟨i, hi, rfl⟩ := List.mem_iff_getElem.1 hf
  have h2 := encodeEntries_ok_iff.1 hfs
  exact ⟨_, (h2.get (i := i) (by rw [h2.length_eq]; exact hi) hi).2⟩

theorem encodeState_has {s : State} {j : Json} (h : encodeState s = .ok j) : isNull j = false ∧ noVerdict j = false := by
  unfold encodeState at h
  cases hv : encodeElems encodeTSet s.transitionSets with
  | error e => rw [hv] at h; cases h
  | ok ts =>
    rw [hv] at h
    simp only at h
    cases hw : encodeVerdict s.verdict with
    | error e => rw [hw] at h; cases h
    | ok v =>
      rw [hw] at h
      cases h
      obtain ⟨fs, rfl, -⟩ := encodeMap_obj hw
      refine ⟨rfl, ?_⟩
      have e : isField c!"verdicts" c!"verdicts" = true := by decide
      have hl : ∀ gs, lastField c!"verdicts" (gs ++ [(c!"verdicts", .obj fs)]) = some (.obj fs) := by
        intro gs
        unfold lastField
        rw [List.filter_append, List.filter_cons, if_pos e, List.filter_nil, List.getLast?_append]
        rfl
      rw [noVerdict, ← List.cons_append, hl]
      rfl

theorem encodeStm_has {m : Stm} {j : Json} (h : encodeStm m = .ok j) : missingIn j = none := by
  unfold encodeStm at h
  cases hv : encodeElems encodeState m.states with
  | error e => rw [hv] at h; cases h
  | ok ss =>
    rw [hv] at h
    simp only at h
    cases hw : encodeTypes m.types with
    | error e => rw [hw] at h; cases h
    | ok ty =>
      rw [hw] at h
      cases h
      have hss : ∀ x ∈ ss, isNull x = false ∧ noVerdict x = false := by
        intro x hx
        obtain ⟨i, hi, rfl⟩ := List.mem_iff_getElem.1 hx
        have hf := encodeElems_ok_iff.1 hv
        exact encodeState_has (hf.get (i := i) (by rw [hf.length_eq]; exact hi) hi)
      have e1 : isField c!"states" c!"states" = true := by decide
      have e2 : isField c!"states" c!"types" = false := by decide
      have e3 : isField c!"states" c!"tests" = false := by decide
      have hl : lastField c!"states" [(c!"states", .arr ss), (c!"types", ty), (c!"tests", encodeSet m.tests)] = some (.arr ss) := by
        simp [lastField, e1, e2, e3]
      unfold missingIn
      simp only [hl]
      rw [if_neg (by simpa using fun x hx => (hss x hx).1), if_neg (by simpa using fun x hx => (hss x hx).2)]

theorem encodeStmSuite_has {s : StmSuite} {j : Json} (h : encodeStmSuite s = .ok j) (test : Str) : missing j test = none := by
  unfold encodeStmSuite at h
  cases hv : encodeTypes s.types with
  | error e => rw [hv] at h; cases h
  | ok ty =>
    rw [hv] at h
    simp only at h
    cases hw : encodeMap encodeStm s.tests with
    | error e => rw [hw] at h; cases h
    | ok ts =>
      rw [hw] at h
      cases h
      obtain ⟨fs, rfl, hfs⟩ := encodeMap_obj hw
      have e1 : isField c!"tests" c!"types" = false := by decide
      have e2 : isField c!"tests" c!"tests" = true := by decide
      have hl : ∀ b b', lastField c!"tests" (field c!"types" b ty ++ field c!"tests" b' (.obj fs)) = none ∨
          lastField c!"tests" (field c!"types" b ty ++ field c!"tests" b' (.obj fs)) = some (.obj fs) := by
        intro b b'
        cases b <;> cases b' <;> simp [lastField, field, e1, e2]
      unfold missing
      simp only
      rcases hl (decide (s.types.length = 0)) (decide (s.tests.length = 0)) with e | e <;> simp only [e]
      cases hg : (fs.filter fun t => t.1 = test).getLast? with
      | none => rfl
      | some t =>
        have ht := List.mem_of_getLast? hg
        obtain ⟨a, ha⟩ := hfs t (List.mem_filter.1 ht).1
        exact encodeStm_has ha

/-- What rtcg-make-stms writes lacks nothing. -/
theorem makeStms_has {i j : Json} (h : makeStmsProgram i = .ok j) (test : Str) : missing j test = none := by
  unfold makeStmsProgram at h
  split at h
  · cases h
  · split at h
    · cases h
    · split at h
      · cases h
      · exact encodeStmSuite_has h test

end Json

namespace Templates

/-- With nothing missing, generation is as before. -/
theorem runRead_none {missing : Str → Option Json.Missing} (h : ∀ k, missing k = none) (cwd : Loc) (fs : Fs) (ops : List Op) :
    runRead missing cwd fs ops = run cwd fs ops := by
  have hop : ∀ fs op, runOpRead missing cwd fs op = runOp cwd fs op := by
    intro fs op
    unfold runOpRead
    split
    · simp only [h]
    · rfl
  induction ops generalizing fs with
  | nil => rfl
  | cons op ops ih =>
    rw [runRead, run, hop]
    rcases runOp cwd fs op with ⟨fs', _ | _⟩
    · rfl
    · exact ih fs'

/-- A generation that succeeds lacked nothing. -/
theorem runRead_ok {missing : Str → Option Json.Missing} {cwd : Loc} {fs fs' : Fs} {ops : List Op}
    (h : runRead missing cwd fs ops = (fs', .ok ())) :
    run cwd fs ops = (fs', .ok ()) ∧ ∀ p v test m tc ctx, Op.write p (.mainCpp v test m tc ctx) ∈ ops → missing test = none := by
  induction ops generalizing fs with
  | nil => exact ⟨h, by simp⟩
  | cons op ops ih =>
    rw [runRead] at h
    have hop : ∀ fs1, runOpRead missing cwd fs op = (fs1, .ok ()) → runOp cwd fs op = (fs1, .ok ()) ∧
        ∀ p v test m tc ctx, op = Op.write p (.mainCpp v test m tc ctx) → missing test = none := by
      intro fs1 h
      unfold runOpRead at h
      split at h
      · rename_i test _ _ _ _
        cases hm : missing test with
        | none =>
          simp only [hm] at h
          refine ⟨h, fun p v test m tc ctx e => ?_⟩
          cases e; exact hm
        | some x =>
          cases x with
          | machine => simp [hm] at h
          | verdict =>
            simp only [hm] at h
            split at h <;> simp [throwErr] at h
      · rename_i hx
        exact ⟨h, fun p v test m tc ctx e => absurd e (hx _ _ _ _ _ _)⟩
    rcases hr : runOpRead missing cwd fs op with ⟨fs1, _ | _⟩
    · rw [hr] at h; simp at h
    · rw [hr] at h
      obtain ⟨h1, h2⟩ := hop _ hr
      obtain ⟨h3, h4⟩ := ih h
      rw [run, h1]
      refine ⟨h3, fun p v test m tc ctx hm => ?_⟩
      rcases List.mem_cons.1 hm with e | hm
      · exact h2 _ _ _ _ _ _ e.symm
      · exact h4 _ _ _ _ _ _ hm

end Templates

end Rtcg
