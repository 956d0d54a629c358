import Verif.Proofs.Path

/-
Running generator operations: frame, content and success.
-/

namespace Rtcg

open Spec

/-- Operations with their paths resolved. -/
inductive LOp where
  | mkdir (l : Loc)
  | write (l : Loc) (c : Content)
  | copy (s d : Loc)

def Op.resolve (cwd : Loc) : Op → LOp
  | .mkdir p => .mkdir (locate cwd p)
  | .write p c => .write (locate cwd p) c
  | .copy s d => .copy (locate cwd s) (locate cwd d)

def LOp.run (fs : Fs) : LOp → Res Fs
  | .mkdir l => fs.mkdirAll l
  | .write l c => fs.write l c
  | .copy s d => fs.copy s d

def runL : Fs → List LOp → Fs × Res Unit
  | fs, [] => (fs, .ok ())
  | fs, op :: ops =>
    match op.run fs with
    | .error e => (fs, .error e)
    | .ok fs => runL fs ops

theorem run_eq (cwd : Loc) (ops : List Op) : ∀ fs, Gen.run cwd fs ops = runL fs (ops.map (Op.resolve cwd)) := by
  induction ops with
  | nil => intro fs; rfl
  | cons op ops ih =>
    intro fs
    have : Gen.runOp cwd fs op = (op.resolve cwd).run fs := by cases op <;> rfl
    simp only [Gen.run, List.map_cons, runL, this]
    cases (op.resolve cwd).run fs with
    | error e => rfl
    | ok f => exact ih f

def LOp.file? : LOp → Option Loc
  | .mkdir _ => none
  | .write l _ => some l
  | .copy _ d => some d

def LOp.dir? : LOp → Option Loc
  | .mkdir l => some l
  | _ => none

theorem create_ok {fs fs' : Fs} {l : Loc} (h : fs.create l = .ok fs') : fs' = fs.put l .empty ∧
    l ≠ [] ∧ fs.isDir l = false ∧ fs.isDir l.dropLast = true := by
  unfold Fs.create at h
  split at h
  · exact absurd h (by simp [throwErr])
  · rename_i hn
    simp only [Bool.or_eq_true, decide_eq_true_eq, Bool.not_eq_true', not_or] at hn
    cases h
    refine ⟨rfl, hn.1.1, by simpa using hn.1.2, by simpa using hn.2⟩

theorem create_of {fs : Fs} {l : Loc} (h1 : l ≠ []) (h2 : fs.isDir l = false) (h3 : fs.isDir l.dropLast = true) :
    fs.create l = .ok (fs.put l .empty) := by
  unfold Fs.create; rw [if_neg (by simp [h1, h2, h3])]

theorem write_ok {fs fs' : Fs} {l : Loc} {c : Content} (h : fs.write l c = .ok fs') :
    fs'.isDir = fs.isDir ∧ (∀ a, fs'.file a = if a = l then some c else fs.file a) ∧
    l ≠ [] ∧ fs.isDir l = false ∧ fs.isDir l.dropLast = true := by
  unfold Fs.write at h
  cases hc : fs.create l with
  | error e => rw [hc] at h; cases h
  | ok f =>
    rw [hc] at h
    obtain ⟨rfl, h'⟩ := create_ok hc
    cases h
    refine ⟨rfl, fun a => ?_, h'⟩
    simp only [Fs.put]
    split <;> rfl

theorem copy_ok {fs fs' : Fs} {s d : Loc} (h : fs.copy s d = .ok fs') :
    fs'.isDir = fs.isDir ∧ (∀ a, a ≠ d → fs'.file a = fs.file a) ∧ (s ≠ d → fs'.file d = fs.file s) ∧ (fs'.file d).isSome ∧
    (fs.file s).isSome ∧ d ≠ [] ∧ fs.isDir d = false ∧ fs.isDir d.dropLast = true := by
  unfold Fs.copy at h
  cases hs : fs.file s with
  | none => rw [hs] at h; exact absurd h (by simp [throwErr])
  | some x =>
    rw [hs] at h
    simp only at h
    cases hc : fs.create d with
    | error e => rw [hc] at h; cases h
    | ok f =>
      rw [hc] at h
      obtain ⟨rfl, h'⟩ := create_ok hc
      cases h
      refine ⟨rfl, fun a ha => ?_, fun hsd => ?_, ?_, by simp, h'⟩
      · simp [Fs.put, ha]
      · simp [Fs.put, hsd, hs]
      · simp [Fs.put]

theorem mkdirAll_ok {fs fs' : Fs} {l : Loc} (h : fs.mkdirAll l = .ok fs') :
    fs'.file = fs.file ∧ (∀ a, fs'.isDir a = (fs.isDir a || decide (a <+: l))) ∧ ∀ a, a <+: l → fs.file a = none := by
  unfold Fs.mkdirAll at h
  split at h
  · exact absurd h (by simp [throwErr])
  · rename_i hn
    cases h
    refine ⟨rfl, fun a => rfl, fun a ha => ?_⟩
    simp only [List.any_eq_true, List.mem_range, not_exists, not_and] at hn
    have := hn a.length (by have := ha.length_le; omega)
    rw [List.prefix_iff_eq_take.1 ha]
    simpa using this

theorem mkdirAll_of {fs : Fs} {l : Loc} (h : ∀ a, a <+: l → fs.file a = none) : ∃ fs', fs.mkdirAll l = .ok fs' := by
  unfold Fs.mkdirAll
  rw [if_neg]
  · exact ⟨_, rfl⟩
  · simp only [List.any_eq_true, not_exists, not_and]
    intro k _
    rw [h _ (List.take_prefix k l)]
    simp

/-- What an operation that succeeds does not touch. -/
theorem LOp.run_frame {fs fs' : Fs} {op : LOp} (h : op.run fs = .ok fs') :
    (∀ a, op.file? ≠ some a → fs'.file a = fs.file a) ∧
    (∀ a, fs'.isDir a = (fs.isDir a || match op.dir? with | some m => decide (a <+: m) | none => false)) ∧
    ∀ a, (fs.file a).isSome → (fs'.file a).isSome := by
  cases op with
  | mkdir l =>
    obtain ⟨h1, h2, -⟩ := mkdirAll_ok h
    exact ⟨fun a _ => by rw [h1], fun a => h2 a, fun a ha => by rw [h1]; exact ha⟩
  | write l c =>
    obtain ⟨h1, h2, -⟩ := write_ok h
    refine ⟨fun a ha => ?_, fun a => by simp [LOp.dir?, h1], fun a ha => ?_⟩
    · rw [h2, if_neg]; rintro rfl; exact ha rfl
    · rw [h2]; split <;> simp [ha]
  | copy s d =>
    obtain ⟨h1, h2, h3, h4, -⟩ := copy_ok h
    refine ⟨fun a ha => h2 a ?_, fun a => by simp [LOp.dir?, h1], fun a ha => ?_⟩
    · rintro rfl; exact ha rfl
    · by_cases had : a = d
      · rw [had]; exact h4
      · rw [h2 a had]; exact ha

theorem runL_file (ops : List LOp) : ∀ fs a, (∀ op ∈ ops, op.file? ≠ some a) → (runL fs ops).1.file a = fs.file a := by
  induction ops with
  | nil => intro fs a _; rfl
  | cons op ops ih =>
    intro fs a h
    unfold runL
    cases hr : op.run fs with
    | error e => rfl
    | ok fs' =>
      simp only
      rw [ih fs' a (fun o ho => h o (by simp [ho])), (LOp.run_frame hr).1 a (h op (by simp))]

theorem runL_isDir (ops : List LOp) : ∀ fs a, (∀ op ∈ ops, ∀ m, op.dir? = some m → ¬ a <+: m) →
    (runL fs ops).1.isDir a = fs.isDir a := by
  induction ops with
  | nil => intro fs a _; rfl
  | cons op ops ih =>
    intro fs a h
    unfold runL
    cases hr : op.run fs with
    | error e => rfl
    | ok fs' =>
      simp only
      rw [ih fs' a (fun o ho => h o (by simp [ho])), (LOp.run_frame hr).2.1 a]
      have := h op (by simp)
      cases hd : op.dir? with
      | none => simp
      | some m => simp [this m hd]

theorem runL_isDir_mono (ops : List LOp) : ∀ fs a, fs.isDir a = true → (runL fs ops).1.isDir a = true := by
  induction ops with
  | nil => intro fs a h; exact h
  | cons op ops ih =>
    intro fs a h
    unfold runL
    cases hr : op.run fs with
    | error e => exact h
    | ok fs' =>
      simp only
      exact ih fs' a (by rw [(LOp.run_frame hr).2.1 a, h]; rfl)

/-- After a successful run with pairwise different files, every file holds what was written into it. -/
theorem runL_content (ops : List LOp) : ∀ fs, (runL fs ops).2 = .ok () → (ops.filterMap LOp.file?).Nodup →
    (∀ l c, LOp.write l c ∈ ops → (runL fs ops).1.file l = some c) ∧
    (∀ s d, LOp.copy s d ∈ ops → s ∉ ops.filterMap LOp.file? → (runL fs ops).1.file d = fs.file s) := by
  induction ops with
  | nil => intro fs _ _; simp
  | cons op ops ih =>
    intro fs hok hnd
    unfold runL at hok ⊢
    cases hr : op.run fs with
    | error e => rw [hr] at hok; cases hok
    | ok fs' =>
      rw [hr] at hok
      simp only at hok ⊢
      have hnd' : (ops.filterMap LOp.file?).Nodup := by
        rw [List.filterMap_cons] at hnd
        split at hnd
        · exact hnd
        · exact (List.nodup_cons.1 hnd).2
      obtain ⟨ihw, ihc⟩ := ih fs' hok hnd'
      have hnot : ∀ a, op.file? = some a → ∀ o ∈ ops, o.file? ≠ some a := by
        intro a ha o ho hoa
        rw [List.filterMap_cons, ha] at hnd
        exact (List.nodup_cons.1 hnd).1 (List.mem_filterMap.2 ⟨o, ho, hoa⟩)
      refine ⟨fun l c hm => ?_, fun s d hm hs => ?_⟩
      · rcases List.mem_cons.1 hm with rfl | hm
        · rw [runL_file ops fs' l (hnot l rfl), (write_ok hr).2.1 l, if_pos rfl]
        · exact ihw l c hm
      · rcases List.mem_cons.1 hm with rfl | hm
        · rw [runL_file ops fs' d (hnot d rfl)]
          refine (copy_ok hr).2.2.1 ?_
          rintro rfl
          exact hs (List.mem_filterMap.2 ⟨_, List.mem_cons_self, rfl⟩)
        · have hs' : s ∉ ops.filterMap LOp.file? := fun h => hs (by
            obtain ⟨o, ho, e⟩ := List.mem_filterMap.1 h
            exact List.mem_filterMap.2 ⟨o, by simp [ho], e⟩)
          rw [ihc s d hm hs', (LOp.run_frame hr).1 s]
          intro h
          exact hs (List.mem_filterMap.2 ⟨op, by simp, h⟩)

theorem runL_append (xs ys : List LOp) : ∀ fs, runL fs (xs ++ ys) =
    match runL fs xs with
    | (fs', .error e) => (fs', .error e)
    | (fs', .ok ()) => runL fs' ys := by
  induction xs with
  | nil => intro fs; rfl
  | cons x xs ih =>
    intro fs
    simp only [List.cons_append, runL]
    split
    · rfl
    · exact ih _

/-- A run of directory creations with no file in the way. -/
theorem runL_mkdirs (ops : List LOp) (hm : ∀ op ∈ ops, ∃ l, op = .mkdir l) : ∀ fs,
    (∀ l, LOp.mkdir l ∈ ops → ∀ a, a <+: l → fs.file a = none) →
    ∃ fs', runL fs ops = (fs', .ok ()) ∧ fs'.file = fs.file ∧
      ∀ a, fs'.isDir a = true ↔ fs.isDir a = true ∨ ∃ l, LOp.mkdir l ∈ ops ∧ a <+: l := by
  induction ops with
  | nil => intro fs _; exact ⟨fs, rfl, rfl, by simp⟩
  | cons op ops ih =>
    intro fs h
    obtain ⟨l, rfl⟩ := hm op (by simp)
    obtain ⟨f, hf⟩ := mkdirAll_of (h l (by simp))
    obtain ⟨e1, e2, -⟩ := mkdirAll_ok hf
    obtain ⟨fs', hr, hfile, hdir⟩ := ih (fun o ho => hm o (by simp [ho])) f
      (fun l' hl' a ha => by rw [e1]; exact h l' (by simp [hl']) a ha)
    refine ⟨fs', ?_, by rw [hfile, e1], fun a => ?_⟩
    · simp only [runL, LOp.run, hf]; exact hr
    · rw [hdir a, e2 a]
      simp only [Bool.or_eq_true, decide_eq_true_eq, List.mem_cons, LOp.mkdir.injEq]
      constructor
      · rintro ((h | h) | ⟨l', h, h'⟩)
        · exact .inl h
        · exact .inr ⟨l, .inl rfl, h⟩
        · exact .inr ⟨l', .inr h, h'⟩
      · rintro (h | ⟨l', (rfl | h), h'⟩)
        · exact .inl (.inl h)
        · exact .inl (.inr h')
        · exact .inr ⟨l', h, h'⟩

/-- What a file operation needs of the directories and sources. -/
def LOp.Ready (fs : Fs) : LOp → Prop
  | .mkdir _ => False
  | .write l _ => l ≠ [] ∧ fs.isDir l = false ∧ fs.isDir l.dropLast = true
  | .copy s d => (fs.file s).isSome ∧ d ≠ [] ∧ fs.isDir d = false ∧ fs.isDir d.dropLast = true

theorem LOp.run_of_ready {fs : Fs} {op : LOp} (h : op.Ready fs) : ∃ fs', op.run fs = .ok fs' := by
  cases op with
  | mkdir l => exact absurd h id
  | write l c =>
    obtain ⟨h1, h2, h3⟩ := h
    exact ⟨_, by simp [LOp.run, Fs.write, create_of h1 h2 h3]; rfl⟩
  | copy s d =>
    obtain ⟨h0, h1, h2, h3⟩ := h
    obtain ⟨x, hx⟩ := Option.isSome_iff_exists.1 h0
    exact ⟨_, by simp [LOp.run, Fs.copy, hx, create_of h1 h2 h3]; rfl⟩

theorem LOp.ready_of_run {fs fs' : Fs} {op : LOp} (hm : ∀ l, op ≠ .mkdir l) (h : op.run fs = .ok fs') : op.Ready fs := by
  cases op with
  | mkdir l => exact absurd rfl (hm l)
  | write l c => exact (write_ok h).2.2
  | copy s d => exact (copy_ok h).2.2.2.2

/-- A run of file operations succeeds when all are ready at the start; and only then, if no source is among the files written. -/
theorem runL_ok_iff (ops : List LOp) (hm : ∀ op ∈ ops, ∀ l, op ≠ .mkdir l) : ∀ fs,
    (∀ s d, LOp.copy s d ∈ ops → s ∉ ops.filterMap LOp.file?) →
    ((runL fs ops).2 = .ok () ↔ ∀ op ∈ ops, op.Ready fs) := by
  induction ops with
  | nil => intro fs _; simp [runL]
  | cons op ops ih =>
    intro fs hsrc
    have hop := hm op (by simp)
    have hsrc' : ∀ s d, LOp.copy s d ∈ ops → s ∉ ops.filterMap LOp.file? := fun s d h hs => by
      refine hsrc s d (by simp [h]) ?_
      obtain ⟨o, ho, e⟩ := List.mem_filterMap.1 hs
      exact List.mem_filterMap.2 ⟨o, by simp [ho], e⟩
    cases hr : op.run fs with
    | error e =>
      constructor
      · intro h; simp [runL, hr] at h
      · intro h
        obtain ⟨fs', hfs'⟩ := LOp.run_of_ready (h op (by simp))
        rw [hr] at hfs'; cases hfs'
    | ok fs' =>
      have ih' := ih (fun o ho => hm o (by simp [ho])) fs' hsrc'
      have hfr := LOp.run_frame hr
      have hready : ∀ o ∈ ops, (o.Ready fs' ↔ o.Ready fs) := by
        intro o ho
        have hd : ∀ a, fs'.isDir a = fs.isDir a := by
          intro a
          rw [hfr.2.1 a]
          cases op with
          | mkdir l => exact absurd rfl (hop l)
          | write l c => simp [LOp.dir?]
          | copy s d => simp [LOp.dir?]
        cases o with
        | mkdir l => exact Iff.rfl
        | write l c => simp only [LOp.Ready, hd]
        | copy s d =>
          have : fs'.file s = fs.file s := hfr.1 s (fun h =>
            hsrc s d (by simp [ho]) (List.mem_filterMap.2 ⟨op, by simp, h⟩))
          simp only [LOp.Ready, hd, this]
      constructor
      · intro h o ho
        rcases List.mem_cons.1 ho with rfl | ho
        · exact LOp.ready_of_run hop hr
        · have : (runL fs' ops).2 = .ok () := by simpa [runL, hr] using h
          exact (hready o ho).1 (ih'.1 this o ho)
      · intro h
        have : (runL fs' ops).2 = .ok () := ih'.2 (fun o ho => (hready o ho).2 (h o (by simp [ho])))
        simpa [runL, hr] using this

/-- The directories once some more have been made. -/
def Fs.afterMkdirs (fs : Fs) (ms : List LOp) : Fs :=
  { fs with isDir := fun a => fs.isDir a || ms.any (fun op => match op.dir? with | some m => decide (a <+: m) | none => false) }

theorem afterMkdirs_isDir (fs : Fs) (ms : List LOp) (a : Loc) :
    (fs.afterMkdirs ms).isDir a = true ↔ fs.isDir a = true ∨ ∃ l, LOp.mkdir l ∈ ms ∧ a <+: l := by
  simp only [Fs.afterMkdirs, Bool.or_eq_true, List.any_eq_true]
  constructor
  · rintro (h | ⟨op, ho, h⟩)
    · exact .inl h
    · cases op with
      | mkdir l => exact .inr ⟨l, ho, by simpa [LOp.dir?] using h⟩
      | write l c => simp [LOp.dir?] at h
      | copy s d => simp [LOp.dir?] at h
  · rintro (h | ⟨l, ho, h⟩)
    · exact .inl h
    · exact .inr ⟨_, ho, by simpa [LOp.dir?] using h⟩

theorem runL_mkdirs_ok (ops : List LOp) (hm : ∀ op ∈ ops, ∃ l, op = .mkdir l) : ∀ fs, (runL fs ops).2 = .ok () →
    ∀ l, LOp.mkdir l ∈ ops → ∀ a, a <+: l → fs.file a = none := by
  induction ops with
  | nil => intro fs _ l hl; simp at hl
  | cons op ops ih =>
    intro fs h l hl a ha
    obtain ⟨l', rfl⟩ := hm op (by simp)
    unfold runL at h
    cases hr : (LOp.mkdir l').run fs with
    | error e => rw [hr] at h; cases h
    | ok f =>
      rw [hr] at h
      obtain ⟨e1, e2, e3⟩ := mkdirAll_ok hr
      rcases List.mem_cons.1 hl with h' | h'
      · cases h'; exact e3 a ha
      · rw [← e1]; exact ih (fun o ho => hm o (by simp [ho])) f h l h' a ha

/-- When making directories and then files succeeds. -/
theorem runL_all_iff (fs : Fs) (mk wr : List LOp) (hmk : ∀ op ∈ mk, ∃ l, op = .mkdir l) (hwr : ∀ op ∈ wr, ∀ l, op ≠ .mkdir l)
    (hsrc : ∀ s d, LOp.copy s d ∈ wr → s ∉ wr.filterMap LOp.file?) :
    (runL fs (mk ++ wr)).2 = .ok () ↔
      (∀ l, LOp.mkdir l ∈ mk → ∀ a, a <+: l → fs.file a = none) ∧ ∀ op ∈ wr, op.Ready (fs.afterMkdirs mk) := by
  rw [runL_append]
  have hready : ∀ f, f.file = fs.file → (∀ a, f.isDir a = true ↔ fs.isDir a = true ∨ ∃ l, LOp.mkdir l ∈ mk ∧ a <+: l) →
      f = fs.afterMkdirs mk := by
    intro f h1 h2
    have : f.isDir = (fs.afterMkdirs mk).isDir := by
      funext a
      rw [Bool.eq_iff_iff, h2, afterMkdirs_isDir]
    cases f
    simp only at h1 this
    simp only [Fs.afterMkdirs] at this ⊢
    rw [h1, this]
  constructor
  · intro h
    have hno : ∀ l, LOp.mkdir l ∈ mk → ∀ a, a <+: l → fs.file a = none := by
      refine runL_mkdirs_ok mk hmk fs ?_
      cases hm : runL fs mk with
      | mk f r =>
        rw [hm] at h
        cases r with
        | error e => simp at h
        | ok u => rfl
    refine ⟨hno, ?_⟩
    obtain ⟨f, hf, h1, h2⟩ := runL_mkdirs mk hmk fs hno
    rw [hf] at h
    rw [← hready f h1 h2]
    exact (runL_ok_iff wr hwr f hsrc).1 h
  · rintro ⟨hno, hr⟩
    obtain ⟨f, hf, h1, h2⟩ := runL_mkdirs mk hmk fs hno
    rw [hf]
    rw [← hready f h1 h2] at hr
    exact (runL_ok_iff wr hwr f hsrc).2 hr

end Rtcg
