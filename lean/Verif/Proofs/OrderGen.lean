import Verif.Proofs.Order
import Verif.Props.CppText

/-
Proofs for C114: rtcg-gen and the order of maps.
-/

namespace Rtcg

namespace Order

open Spec Spec.CppText

/-! ### reordering composes -/

theorem AggTo.refl (a : AggregateSet) : AggTo a a := ⟨rfl, List.Perm.refl _⟩

theorem AggTo.trans {a b c : AggregateSet} (h : AggTo a b) (h' : AggTo b c) : AggTo a c := ⟨h'.1.trans h.1, h.2.trans h'.2⟩

theorem TcTo.trans {a b c : TransitionContext} (h : TcTo a b) (h' : TcTo b c) : TcTo a c := by
  obtain ⟨h1, h2, h3, h4, h5, h6, h7⟩ := h
  obtain ⟨g1, g2, g3, g4, g5, g6, g7⟩ := h'
  exact ⟨g1.trans h1, forall₂_trans (P := AggTo) (fun _ _ _ => AggTo.trans) h2 g2, forall₂_trans (P := AggTo) (fun _ _ _ => AggTo.trans) h3 g3,
    forall₂_trans (P := AggTo) (fun _ _ _ => AggTo.trans) h4 g4, h5.trans g5, g6.trans h6, g7.trans h7⟩

theorem TcTo.refl (a : TransitionContext) : TcTo a a :=
  ⟨rfl, List.forall₂_same.2 fun a _ => AggTo.refl a, List.forall₂_same.2 fun a _ => AggTo.refl a,
    List.forall₂_same.2 fun a _ => AggTo.refl a, List.Perm.refl _, rfl, rfl⟩

theorem CtxTo.refl (a : CppConfig.Context) : CtxTo a a := ⟨rfl, List.Perm.refl _, rfl⟩

theorem CtxTo.trans {a b c : CppConfig.Context} (h : CtxTo a b) (h' : CtxTo b c) : CtxTo a c :=
  ⟨h'.1.trans h.1, h.2.1.trans h'.2.1, h'.2.2.trans h.2.2⟩

theorem ContentTo.trans {a b c : Content} (h : ContentTo a b) (h' : ContentTo b c) : ContentTo a c := by
  cases h with
  | convertH h =>
    cases h' with
    | convertH h' => exact .convertH (h.trans h')
    | same => exact .convertH h
  | mainCpp h1 h2 h3 =>
    cases h' with
    | mainCpp g1 g2 g3 => exact .mainCpp (h1.trans g1) (h2.trans g2) (h3.trans g3)
    | same => exact .mainCpp h1 h2 h3
  | makefile h1 h2 =>
    cases h' with
    | makefile g1 g2 => exact .makefile (h1.trans g1) (h2.trans g2)
    | same => exact .makefile h1 h2
  | same => exact h'

theorem OpTo.trans {a b c : Op} (h : OpTo a b) (h' : OpTo b c) : OpTo a c := by
  cases h with
  | write h =>
    cases h' with
    | write h' => exact .write (h.trans h')
    | same => exact .write h
  | same => exact h'

theorem opTo_refl (l : List Op) : List.Forall₂ OpTo l l := List.forall₂_same.2 fun op _ => .same op

/-! ### the contexts -/

theorem process_to (c : CppConfig.Config) {types types' : TypeMap} (hwf : GoMap.WF types) (hp : List.Perm types types') :
    CtxTo (c.process types) (c.process types') := by
  have hwf' : GoMap.WF types' := (hp.map _).nodup_iff.1 hwf
  obtain ⟨h1, h2⟩ := C48_order c types types' hwf hp
  obtain ⟨a1, a2, _⟩ := C48_process c types hwf
  obtain ⟨b1, b2, _⟩ := C48_process c types' hwf'
  exact ⟨b1.trans a1.symm, GoMap.perm_of_equiv a2 b2 h2, h1.symm⟩

theorem equiv_trans {α : Type} {a b c : GoMap Str α} (h : GoMap.Equiv a b) (h' : GoMap.Equiv b c) : GoMap.Equiv a c :=
  fun k => (h k).trans (h' k)

theorem merge_equiv {m m' : GoMap Str (List Transition)} (h : GoMap.Equiv m m') {xs ys : List (Str × List Transition)}
    (hx : GoMap.WF xs) (hp : xs.Perm ys) : GoMap.Equiv (mergeAll m xs) (mergeAll m' ys) := by
  intro k
  have hy : GoMap.WF ys := (hp.map _).nodup_iff.1 hx
  rw [get?_mergeAll, get?_mergeAll, h k]
  have e1 : k ∉ xs.map (·.1) ↔ k ∉ ys.map (·.1) := not_congr (hp.map _).mem_iff
  have e2 : (xs.filter (fun x => x.1 = k)).flatMap (·.2) = (ys.filter (fun x => x.1 = k)).flatMap (·.2) := by
    have hp' := hp.filter (fun x => decide (x.1 = k))
    have one : ∀ l : List (Str × List Transition), GoMap.WF l → (l.filter (fun x => x.1 = k)).length ≤ 1 := by
      intro l hl
      induction l with
      | nil => simp
      | cons x l ih =>
        unfold GoMap.WF at hl
        rw [List.map_cons, List.nodup_cons] at hl
        by_cases hx : x.1 = k
        · have : l.filter (fun x => x.1 = k) = [] := by
            rw [List.filter_eq_nil_iff]
            intro y hy
            simp only [decide_eq_true_eq]
            rintro rfl
            exact hl.1 (hx ▸ List.mem_map_of_mem (f := (·.1)) hy)
          simp [hx, this]
        · simpa [hx] using ih hl.2
    have h1 := one xs hx
    generalize xs.filter (fun x => x.1 = k) = l at hp' h1 ⊢
    match l, h1 with
    | [], _ => rw [hp'.nil_eq]
    | [a], _ => rw [List.perm_singleton.1 hp'.symm]
  simp only [e1, e2]

theorem wf_perm {α : Type} {m m' : GoMap Str α} (h : GoMap.WF m) (hp : List.Perm m m') : GoMap.WF m' := (hp.map _).nodup_iff.1 h

theorem populate_may {l : List AggregateSet} (hw : ∀ a ∈ l, GoMap.WF a.states) : ∀ {c d d' : TransitionContext},
    GoMap.WF c.inMerged → GoMap.WF d.inMerged → TcTo c d → MayPopulate l d d' →
    TcTo (l.foldl (fun c tra =>
      let c := { c with channels := c.channels ++ [tra.channel] }
      if tra.channel.isIn then c.addInput tra else { c with out := c.out ++ [tra] }) c) d' ∧
      GoMap.WF (l.foldl (fun c tra =>
      let c := { c with channels := c.channels ++ [tra.channel] }
      if tra.channel.isIn then c.addInput tra else { c with out := c.out ++ [tra] }) c).inMerged := by
  induction l with
  | nil => intro c d d' hc hd h h'; unfold MayPopulate at h'; subst h'; exact ⟨h, hc⟩
  | cons tra l ih =>
    intro c d d' hc hd h h'
    obtain ⟨tra', ha, h'⟩ := h'
    rw [List.foldl_cons]
    obtain ⟨h1, h2, h3, h4, h5, h6, h7⟩ := h
    have hch := ha.1
    have hwt := hw tra (by simp)
    by_cases hi : tra.channel.isIn = true
    · rw [if_pos (by rw [hch]; exact hi)] at h'
      simp only [hi, if_true]
      refine ih (fun a ha => hw a (by simp [ha])) ?_ ?_ ?_ h'
      · exact mergeAll_wf hc tra.states
      · exact mergeAll_wf hd tra'.states
      · refine ⟨by simp [TransitionContext.addInput, h1, hch], h2, ?_, h4, ?_, rfl, h7⟩
        · exact List.rel_append h3 (.cons ha .nil)
        · refine GoMap.perm_of_equiv (mergeAll_wf hc tra.states) (mergeAll_wf hd tra'.states) ?_
          exact merge_equiv (fun k => GoMap.get?_perm hc h5) hwt ha.2
    · rw [if_neg (by rw [hch]; exact hi)] at h'
      simp only [hi, Bool.false_eq_true, if_false]
      refine ih (d := { d with channels := d.channels ++ [tra'.channel], out := d.out ++ [tra'] }) (fun a ha => hw a (by simp [ha])) hc hd ?_ h'
      exact ⟨by simp [h1, hch], h2, h3, List.rel_append h4 (.cons ha .nil), h5, h6, h7⟩

theorem transitions_may {m : Stm} {tc : TransitionContext} (h : MayTransitions m tc) : TcTo (TransitionContext.make m) tc := by
  obtain ⟨tc0, h0, h1⟩ := h
  have hw := fun a ha => ((C38_aggregates m).2 a ha).1
  exact (populate_may hw GoMap.wf_nil GoMap.wf_nil (TcTo.refl _) h0).1.trans h1

theorem may_populate (l : List AggregateSet) : ∀ c, MayPopulate l c (l.foldl (fun c tra =>
    let c := { c with channels := c.channels ++ [tra.channel] }
    if tra.channel.isIn then c.addInput tra else { c with out := c.out ++ [tra] }) c) := by
  induction l with
  | nil => intro c; rfl
  | cons tra l ih =>
    intro c
    refine ⟨tra, AggTo.refl _, ?_⟩
    rw [List.foldl_cons]
    by_cases hi : tra.channel.isIn = true
    · simp only [hi, if_true]; exact ih _
    · simp only [hi, Bool.false_eq_true, if_false]; exact ih _

theorem may_transitions (m : Stm) : MayTransitions m (TransitionContext.make m) := ⟨_, may_populate _ _, TcTo.refl _⟩

theorem make_of_states {m m' : Stm} (h : List.Forall₂ StateTo m.states m'.states) : TransitionContext.make m' = TransitionContext.make m := by
  have hp : pairsOf m' = pairsOf m := by
    unfold pairsOf
    generalize m.states = l, m'.states = l' at h
    induction h with
    | nil => rfl
    | cons a _ ih => simp only [List.flatMap_cons, ih, a.1, a.2.1]
  have hf : TransitionContext.firstHasIn m' = TransitionContext.firstHasIn m := by
    unfold TransitionContext.firstHasIn
    generalize m.states = l, m'.states = l' at h
    cases h with
    | nil => rfl
    | cons a _ => simp only [a.2.1]
  have ha : m'.aggregates = m.aggregates := by rw [aggregates_eq, aggregates_eq, hp]
  unfold TransitionContext.make
  rw [ha, hf]

/-! ### the operations -/

theorem keys_to {suite suite' : StmSuite} (h : SuiteTo suite suite') : List.Perm suite.tests.keys suite'.tests.keys := by
  obtain ⟨_, l, hp, hl⟩ := h
  unfold GoMap.keys
  refine (hp.map _).trans ?_
  have : l.map (·.1) = suite'.tests.map (·.1) := by
    clear hp
    generalize suite'.tests = l' at hl
    induction hl with
    | nil => rfl
    | cons a _ ih => simp [a.1, ih]
  rw [this]

theorem flatMap_keys {β : Type} (f : Str → List β) (m : GoMap Str Stm) : m.flatMap (fun nt => f nt.1) = m.keys.flatMap f := by
  unfold GoMap.keys
  rw [List.flatMap_map]

theorem mkdirs_may {dirs : DirSet} {suite : StmSuite} {c : CppConfig.Config} {ops : List Op} (hwt : GoMap.WF suite.types)
    (h : MayMkdirs dirs suite c ops) : ops.Perm (Gen.mkdirOps dirs suite c) := by
  obtain ⟨s', hs, rfl⟩ := h
  unfold Gen.mkdirOps CppGen.dirs
  refine List.Perm.map _ ?_
  rw [(process_to c hwt hs.1).2.2]
  refine List.Perm.append (List.Perm.refl _) ?_
  rw [flatMap_keys (CppGen.testDirs _), flatMap_keys (CppGen.testDirs _)]
  exact ((keys_to hs).flatMap_right _).symm

theorem writes_may {dirs : DirSet} {suite : StmSuite} {c : CppConfig.Config} {ops : List Op} (hwt : GoMap.WF suite.types)
    (h : MayWrites dirs suite c ops) : ∃ ops0, ops0.Perm (Gen.writeOps dirs suite c) ∧ List.Forall₂ OpTo ops0 ops := by
  obtain ⟨s1, s2, s3, tests, ops0, h1, h2, h3, ht, rfl, ho⟩ := h
  have hc1 := process_to c hwt h1.1
  have hc3 := process_to c hwt h3.1
  obtain ⟨_, l, hp, hl⟩ := h1
  refine ⟨CppGen.copyPrelude ((Gen.variantDirs dirs c).subdir c!"src") ++
      CppGen.generateCommon ((Gen.variantDirs dirs c).subdir c!"src") c.variant (c.process suite.types) ++
      (l.map fun nt => .write (joinPath [(((Gen.variantDirs dirs c).subdir c!"src").subdir nt.1).output, c!"src", c!"main.cpp"])
        (.mainCpp c.variant nt.1 nt.2 (TransitionContext.make nt.2) (c.process suite.types))) ++
      (match c.catkin with
        | none => []
        | some pkg => CatkinGen.generate ((Gen.variantDirs dirs c).subdir c!"src") pkg s2) ++
      (if c.makefile then MakefileGen.generate (Gen.variantDirs dirs c) (c.process suite.types) suite else []), ?_, ?_⟩
  · unfold Gen.writeOps CppGen.generate CppGen.generateTests
    refine List.Perm.append (List.Perm.append (List.Perm.append (List.Perm.refl _) (hp.symm.map _)) ?_) (List.Perm.refl _)
    cases c.catkin with
    | none => exact List.Perm.refl _
    | some pkg =>
      have hk := fun (f : Str → List Op) => ((keys_to h2).flatMap_right f).symm
      simp only [← flatMap_keys] at hk
      exact hk fun k =>
        [.write (joinPath [(((Gen.variantDirs dirs c).subdir c!"src").subdir k).output, c!"package.xml"]) (.packageXml (Catkin.forTest pkg k)),
         .write (joinPath [(((Gen.variantDirs dirs c).subdir c!"src").subdir k).output, c!"", c!"CMakeLists.txt"]) (.cmake (Catkin.forTest pkg k))]
  · refine forall₂_trans (P := OpTo) (fun _ _ _ => OpTo.trans) ?_ ho
    refine List.rel_append (List.rel_append (List.rel_append (List.rel_append (opTo_refl _) ?_) ?_) (opTo_refl _)) ?_
    · unfold CppGen.generateCommon
      rw [hc1.2.2]
      exact List.rel_append (opTo_refl _) (.cons (.write (.convertH hc1)) .nil)
    · clear ho hp
      generalize s1.tests = l' at hl ht
      induction hl generalizing tests with
      | nil => cases ht; exact .nil
      | cons a _ ih =>
        cases ht with
        | cons t ht =>
          obtain ⟨tc, htc, rfl⟩ := t
          rw [List.map_cons, a.1]
          refine .cons (.write (.mainCpp a.2 ?_ hc1)) (ih _ ht)
          rw [← make_of_states a.2.1]
          exact transitions_may htc
    · cases c.makefile with
      | false => exact .nil
      | true =>
        unfold MakefileGen.generate
        exact .cons (.write (.makefile (keys_to h3) hc3)) .nil

theorem ops_may {cfg : GenConfig} {out : Str} {suite : StmSuite} {ops : List Op} (hwt : GoMap.WF suite.types) (h : MayOps cfg out suite ops) :
    ∃ mk wr0 wr, ops = mk ++ wr ∧ mk.Perm (cfg.cpps.flatMap (Gen.mkdirOps (gdirs cfg out) suite)) ∧
      wr0.Perm (cfg.cpps.flatMap (Gen.writeOps (gdirs cfg out) suite)) ∧ List.Forall₂ OpTo wr0 wr := by
  obtain ⟨mk, wr, h1, h2, rfl⟩ := h
  have a : mk.flatten.Perm (cfg.cpps.flatMap (Gen.mkdirOps (gdirs cfg out) suite)) := by
    clear h2
    generalize cfg.cpps = l at h1
    induction h1 with
    | nil => exact List.Perm.refl _
    | cons h _ ih => exact List.Perm.append (mkdirs_may hwt h) ih
  have b : ∃ wr0 : List Op, wr0.Perm (cfg.cpps.flatMap (Gen.writeOps (gdirs cfg out) suite)) ∧ List.Forall₂ OpTo wr0 wr.flatten := by
    clear h1 a
    generalize cfg.cpps = l at h2
    induction h2 with
    | nil => exact ⟨[], List.Perm.refl _, .nil⟩
    | cons h _ ih =>
      obtain ⟨x, hx, hx'⟩ := writes_may hwt h
      obtain ⟨y, hy, hy'⟩ := ih
      exact ⟨x ++ y, List.Perm.append hx hy, List.rel_append hx' hy'⟩
  obtain ⟨wr0, b, b'⟩ := b
  exact ⟨_, wr0, _, rfl, a, b, b'⟩

/-! ### running them -/

/-- The same file system, but where `W` allows contents with their maps in other orders -/
def FsTo (W : Loc → Content → Prop) (fs fs' : Fs) : Prop :=
  fs'.isDir = fs.isDir ∧ ∀ a, fs'.file a = fs.file a ∨ ∃ c c', fs.file a = some c ∧ fs'.file a = some c' ∧ ContentTo c c' ∧ W a c

variable {W : Loc → Content → Prop}

theorem FsTo.refl (fs : Fs) : FsTo W fs fs := ⟨rfl, fun _ => .inl rfl⟩

theorem FsTo.put {fs fs' : Fs} (h : FsTo W fs fs') (l : Loc) {c c' : Content} (hc : c' = c ∨ ContentTo c c' ∧ W l c) :
    FsTo W (fs.put l c) (fs'.put l c') := by
  refine ⟨h.1, fun a => ?_⟩
  unfold Fs.put
  simp only
  split
  · rename_i e
    subst e
    rcases hc with rfl | hc
    · exact .inl rfl
    · exact .inr ⟨c, c', rfl, rfl, hc⟩
  · exact h.2 a

/-- Where the operation puts contents, `W` allows them. -/
def Allowed (cwd : Loc) (W : Loc → Content → Prop) : Op → Prop
  | .mkdir _ => True
  | .write p c => W (locate cwd p) c
  | .copy s d => ∀ c, W (locate cwd s) c → W (locate cwd d) c

theorem runOp_to {cwd : Loc} {fs fs' fs1 : Fs} (h : FsTo W fs fs') {op op' : Op} (ho : OpTo op op') (hw : Allowed cwd W op)
    (hr : Gen.runOp cwd fs op = .ok fs1) : ∃ fs1', Gen.runOp cwd fs' op' = .ok fs1' ∧ FsTo W fs1 fs1' := by
  have write : ∀ p c c', (c' = c ∨ ContentTo c c' ∧ W (locate cwd p) c) → fs.write (locate cwd p) c = .ok fs1 →
      ∃ fs1', fs'.write (locate cwd p) c' = .ok fs1' ∧ FsTo W fs1 fs1' := by
    intro p c c' hc hr
    unfold Fs.write Fs.create at hr ⊢
    rw [h.1]
    split at hr
    · rename_i hcr
      split at hcr
      · simp [throwErr] at hcr; subst hcr; simp at hr
      · cases hcr
    · rename_i f hcr
      split at hcr
      · simp [throwErr] at hcr
      · rename_i hb
        rw [if_neg hb]
        cases hcr
        cases hr
        exact ⟨_, rfl, (h.put _ (.inl rfl)).put _ hc⟩
  cases ho with
  | write hc => exact write _ _ _ (.inr ⟨hc, hw⟩) hr
  | same =>
    cases op with
    | write p c => exact write p c c (.inl rfl) hr
    | mkdir p =>
      simp only [Gen.runOp, Fs.mkdirAll] at hr ⊢
      have e : ∀ k, (fs'.file (List.take k (locate cwd p))).isSome = (fs.file (List.take k (locate cwd p))).isSome := by
        intro k
        rcases h.2 (List.take k (locate cwd p)) with h1 | ⟨c, c', h1, h2, _⟩
        · rw [h1]
        · rw [h1, h2]; rfl
      simp only [e]
      split at hr
      · simp [throwErr] at hr
      · rename_i hb
        rw [if_neg hb]
        cases hr
        exact ⟨_, rfl, by rw [h.1], h.2⟩
    | copy s d =>
      simp only [Gen.runOp, Fs.copy] at hr ⊢
      cases hs : fs.file (locate cwd s) with
      | none => rw [hs] at hr; simp [throwErr] at hr
      | some c =>
        have hs' : ∃ c', fs'.file (locate cwd s) = some c' := by
          rcases h.2 (locate cwd s) with h1 | ⟨_, c', _, h2, _⟩
          · exact ⟨c, h1.trans hs⟩
          · exact ⟨c', h2⟩
        obtain ⟨c', hs'⟩ := hs'
        rw [hs] at hr
        rw [hs']
        simp only [Fs.create] at hr ⊢
        rw [h.1]
        split at hr
        · rename_i hcr
          split at hcr
          · simp [throwErr] at hcr; subst hcr; simp at hr
          · cases hcr
        · rename_i f hcr
          split at hcr
          · simp [throwErr] at hcr
          · rename_i hb
            rw [if_neg hb]
            cases hcr
            cases hr
            refine ⟨_, rfl, (h.put _ (.inl rfl)).put _ ?_⟩
            have hp := (h.put (locate cwd d) (c := .empty) (.inl rfl)).2 (locate cwd s)
            rcases hp with e1 | ⟨x, x', e1, e2, e3, e4⟩
            · rw [e1]; exact .inl rfl
            · rw [e1, e2]; exact .inr ⟨e3, hw _ e4⟩

theorem run_to {cwd : Loc} {ops ops' : List Op} (ho : List.Forall₂ OpTo ops ops') : ∀ {fs fs' fs1 : Fs}, FsTo W fs fs' →
    (∀ op ∈ ops, Allowed cwd W op) →
    Gen.run cwd fs ops = (fs1, .ok ()) → ∃ fs1', Gen.run cwd fs' ops' = (fs1', .ok ()) ∧ FsTo W fs1 fs1' := by
  induction ho with
  | nil => intro fs fs' fs1 h _ hr; cases hr; exact ⟨fs', rfl, h⟩
  | cons a _ ih =>
    intro fs fs' fs1 h hw hr
    rw [Gen.run] at hr
    split at hr
    · simp at hr
    · rename_i f hf
      obtain ⟨f', hf', hff⟩ := runOp_to h a (hw _ (by simp)) hf
      obtain ⟨g, hg, hgg⟩ := ih hff (fun op hop => hw op (by simp [hop])) hr
      exact ⟨g, by rw [Gen.run]; simp only [hf']; exact hg, hgg⟩

theorem run_to_ok {cwd : Loc} {ops ops' : List Op} (ho : List.Forall₂ OpTo ops ops') {fs fs1 : Fs}
    (hr : Gen.run cwd fs ops = (fs1, .ok ())) : ∃ fs1', Gen.run cwd fs ops' = (fs1', .ok ()) := by
  obtain ⟨g, hg, _⟩ := run_to (W := fun _ _ => True) ho (FsTo.refl fs) (fun op _ => by cases op <;> simp [Allowed]) hr
  exact ⟨g, hg⟩

theorem CtxTo.symm {a b : CppConfig.Context} (h : CtxTo a b) : CtxTo b a := ⟨h.1.symm, h.2.1.symm, h.2.2.symm⟩

theorem AggTo.symm {a b : AggregateSet} (h : AggTo a b) : AggTo b a := ⟨h.1.symm, h.2.symm⟩

theorem forall₂_symm {α : Type} {P : α → α → Prop} (hP : ∀ a b, P a b → P b a) {l l' : List α} (h : List.Forall₂ P l l') :
    List.Forall₂ P l' l := by
  induction h with
  | nil => exact .nil
  | cons a _ ih => exact .cons (hP _ _ a) ih

theorem TcTo.symm {a b : TransitionContext} (h : TcTo a b) : TcTo b a := by
  obtain ⟨h1, h2, h3, h4, h5, h6, h7⟩ := h
  exact ⟨h1.symm, forall₂_symm (P := AggTo) (fun _ _ => AggTo.symm) h2, forall₂_symm (P := AggTo) (fun _ _ => AggTo.symm) h3,
    forall₂_symm (P := AggTo) (fun _ _ => AggTo.symm) h4, h5.symm, h6.symm, h7.symm⟩

theorem ContentTo.symm {a b : Content} (h : ContentTo a b) : ContentTo b a := by
  cases h with
  | convertH h => exact .convertH h.symm
  | mainCpp h1 h2 h3 => exact .mainCpp h1.symm h2.symm h3.symm
  | makefile h1 h2 => exact .makefile h1.symm h2.symm
  | same => exact .same _

theorem OpTo.symm {a b : Op} (h : OpTo a b) : OpTo b a := by
  cases h with
  | write h => exact .write h.symm
  | same => exact .same _

theorem any_perm {α : Type} {l l' : List α} (h : l.Perm l') (p : α → Bool) : l.any p = l'.any p := by
  rw [Bool.eq_iff_iff]; simp only [List.any_eq_true, h.mem_iff]

theorem all_perm {α : Type} {l l' : List α} (h : l.Perm l') (p : α → Bool) : l.all p = l'.all p := by
  rw [Bool.eq_iff_iff]; simp only [List.all_eq_true, h.mem_iff]

theorem any_rel {α : Type} {R : α → α → Prop} {l l' : List α} (h : List.Forall₂ R l l') {p : α → Bool} (hp : ∀ a b, R a b → p a = p b) :
    l.any p = l'.any p := by
  induction h with
  | nil => rfl
  | cons a _ ih => rw [List.any_cons, List.any_cons, ih, hp _ _ a]

/-- Whether a template fails does not depend on the orders. -/
theorem execute_to {c c' : Content} (h : ContentTo c c') (hw : ∀ v n m tc ctx, c = .mainCpp v n m tc ctx → GoMap.WF ctx.channelTypes) :
    Templates.execute c = Templates.execute c' := by
  cases h with
  | convertH h =>
    simp only [Templates.execute, Templates.convertH]
    rw [all_perm h.2.1]
  | @mainCpp v name m m' tc tc' ctx ctx' h1 h2 h3 =>
    have hw := hw _ _ _ _ _ rfl
    obtain ⟨g1, g2, g3, g4, g5, g6, g7⟩ := h2
    simp only [Templates.execute, Templates.mainCpp]
    have e : tc.out.any (fun a => !(Templates.typeOf (GoMap.get? ctx.channelTypes a.channel.name)).toBool) =
        tc'.out.any (fun a => !(Templates.typeOf (GoMap.get? ctx'.channelTypes a.channel.name)).toBool) := by
      simp only [GoMap.get?_perm hw h3.2.1]
      exact any_rel g4 fun a b hab => by rw [hab.1]
    rw [h1.1.length_eq, g6, any_perm g5, e]
  | makefile h1 h2 => rfl
  | same => rfl

theorem runRead_ok_iff {missing : Str → Option Json.Missing} {cwd : Loc} {ops : List Op} : ∀ {fs fs' : Fs},
    Templates.runRead missing cwd fs ops = (fs', .ok ()) ↔ Gen.run cwd fs ops = (fs', .ok ()) ∧
      (∀ p c, Op.write p c ∈ ops → Templates.execute c = .ok ()) ∧
      ∀ p v test m tc ctx, Op.write p (.mainCpp v test m tc ctx) ∈ ops → missing test = none := by
  intro fs fs'
  constructor
  · intro h
    obtain ⟨h1, h2⟩ := Templates.runRead_ok h
    exact ⟨Templates.run_ok h1, fun p c hp => Templates.run_executed h1 hp, h2⟩
  · rintro ⟨h1, h2, h3⟩
    induction ops generalizing fs with
    | nil => exact h1
    | cons op ops ih =>
      rw [Gen.run] at h1
      split at h1
      · simp at h1
      · rename_i f hf
        have hi := ih h1 (fun p c hp => h2 p c (by simp [hp])) (fun p v t m tc ctx hp => h3 p v t m tc ctx (by simp [hp]))
        have hop : Templates.runOp cwd fs op = (f, .ok ()) := by
          unfold Templates.runOp
          rw [hf]
          cases op with
          | write p c => simp only [h2 p c (by simp)]
          | mkdir p => rfl
          | copy s d => rfl
        have : Templates.runOpRead missing cwd fs op = (f, .ok ()) := by
          unfold Templates.runOpRead
          split
          · rename_i p v test m tc ctx
            simp only [h3 p v test m tc ctx (by simp)]
            exact hop
          · exact hop
        rw [Templates.runRead]
        simp only [this]
        exact hi

theorem runL_dirs (ops : List LOp) : ∀ {fs fs' : Fs}, runL fs ops = (fs', .ok ()) →
    ∀ a, fs'.isDir a = true ↔ fs.isDir a = true ∨ ∃ op ∈ ops, ∃ m, op.dir? = some m ∧ a <+: m := by
  induction ops with
  | nil => intro fs fs' h a; cases h; simp
  | cons op ops ih =>
    intro fs fs' h a
    rw [runL] at h
    cases hr : op.run fs with
    | error e => simp [hr] at h
    | ok f =>
      simp only [hr] at h
      rw [ih h a, (LOp.run_frame hr).2.1 a]
      cases hd : op.dir? with
      | none =>
        simp only [Bool.or_false, List.mem_cons, exists_eq_or_imp, hd]
        simp
      | some m =>
        simp only [Bool.or_eq_true, decide_eq_true_eq, List.mem_cons, exists_eq_or_imp, hd, Option.some.injEq, exists_eq_left', or_assoc]

theorem runL_perm {ops ops' : List LOp} (hp : ops.Perm ops') {fs f f' : Fs} (h : runL fs ops = (f, .ok ())) (h' : runL fs ops' = (f', .ok ()))
    (hnd : (ops.filterMap LOp.file?).Nodup) (hsrc : ∀ s d, LOp.copy s d ∈ ops → s ∉ ops.filterMap LOp.file?) : f = f' := by
  have hd : f.isDir = f'.isDir := by
    funext a
    rw [Bool.eq_iff_iff, runL_dirs _ h, runL_dirs _ h']
    simp only [hp.mem_iff]
  have hpf := hp.filterMap LOp.file?
  have c1 := runL_content ops fs (by rw [h]) hnd
  have c2 := runL_content ops' fs (by rw [h']) (hpf.nodup_iff.1 hnd)
  have u1 := runL_file ops fs
  have u2 := runL_file ops' fs
  rw [h] at c1 u1
  rw [h'] at c2 u2
  simp only at c1 c2 u1 u2
  have hf : f.file = f'.file := by
    funext a
    by_cases ha : ∃ op ∈ ops, op.file? = some a
    · obtain ⟨op, hop, e⟩ := ha
      cases op with
      | mkdir l => simp [LOp.file?] at e
      | write l c =>
        simp only [LOp.file?, Option.some.injEq] at e
        subst e
        rw [c1.1 l c hop, c2.1 l c (hp.mem_iff.1 hop)]
      | copy s d =>
        simp only [LOp.file?, Option.some.injEq] at e
        subst e
        have hs := hsrc s d hop
        rw [c1.2 s d hop hs, c2.2 s d (hp.mem_iff.1 hop) (fun hx => hs (hpf.mem_iff.2 hx))]
    · have ha' : ∀ op ∈ ops, op.file? ≠ some a := fun op hop e => ha ⟨op, hop, e⟩
      rw [u1 a ha', u2 a (fun op hop => ha' op (hp.mem_iff.2 hop))]
  cases f; cases f'; simp only [Fs.mk.injEq]; exact ⟨hd, hf⟩

/-- No conversion that is copied is written. -/
theorem no_copy {cwd : Loc} {cfg : GenConfig} {out : Str} {suite : StmSuite} (hn : PlainNames suite) (hwt : GoMap.WF suite.types)
    (hsrc : ∀ c ∈ cfg.cpps, needsConversion suite c → ¬ Inside (locate cwd out) (locate cwd cfg.directory ++ conversionFile c))
    {s d p : Str} {k : Content} (hc : Op.copy s d ∈ Gen.ops cfg out suite) (hw : Op.write p k ∈ Gen.ops cfg out suite) :
    locate cwd p ≠ locate cwd s := by
  have hmem : ∀ op ∈ Gen.ops cfg out suite, op.resolve cwd ∈ lmk cwd cfg out suite ++ lwr cwd cfg out suite := by
    intro op hop
    rw [← ops_resolve]; exact List.mem_map_of_mem hop
  have hc' := hmem _ hc
  have hw' := hmem _ hw
  simp only [Op.resolve] at hc' hw'
  intro e
  rcases List.mem_append.1 hw' with hw' | hw'
  · obtain ⟨r, _, e⟩ := lmk_inside cwd cfg out hn hw'
    cases e
  · obtain ⟨r, _, e'⟩ := lwr_inside cwd cfg out hn hw'
    rcases List.mem_append.1 hc' with hc' | hc'
    · obtain ⟨r, _, e⟩ := lmk_inside cwd cfg out hn hc'
      cases e
    · obtain ⟨c, hc, ⟨hb, e2⟩ | ⟨rc, _, e2⟩⟩ := (mem_lwr cwd cfg out hn _).1 hc'
      · simp only [LOp.copy.injEq] at e2
        refine hsrc c hc ((needsConversion_iff hwt).1 hb) ?_
        rw [← e2.1, ← e]
        simp only [LOp.file?, Option.some.injEq] at e'
        rw [e']
        exact List.prefix_append _ _
      · cases e2

/-- A generation in any order against the one in the order of the suite. -/
theorem gen_to {cwd : Loc} {fs : Fs} {cfg : GenConfig} {out : Str} {suite : StmSuite} {missing : Str → Option Json.Missing} {ops : List Op}
    (hn : PlainNames suite) (hwt : GoMap.WF suite.types)
    (hsrc : ∀ c ∈ cfg.cpps, needsConversion suite c → ¬ Inside (locate cwd out) (locate cwd cfg.directory ++ conversionFile c))
    (h : MayOps cfg out suite ops) :
    ((Templates.runRead missing cwd fs ops).2 = .ok () ↔ (Templates.runRead missing cwd fs (Gen.ops cfg out suite)).2 = .ok ()) ∧
    ∀ fs0 fs1, GoMap.WF suite.tests → (cfg.cpps.map (·.variant)).Nodup →
      Templates.runRead missing cwd fs (Gen.ops cfg out suite) = (fs0, .ok ()) →
      Templates.runRead missing cwd fs ops = (fs1, .ok ()) →
      FsTo (fun a c => ∃ p, locate cwd p = a ∧ Op.write p c ∈ Gen.ops cfg out suite) fs0 fs1 := by
  obtain ⟨mk, wr0, wr, rfl, hmk, hwr, ho⟩ := ops_may hwt h
  have hops : List.Forall₂ OpTo (mk ++ wr0) (mk ++ wr) := List.rel_append (opTo_refl _) ho
  have hops' : List.Forall₂ OpTo (mk ++ wr) (mk ++ wr0) := forall₂_symm (P := OpTo) (fun _ _ => OpTo.symm) hops
  have hperm : (mk ++ wr0).Perm (Gen.ops cfg out suite) := List.Perm.append hmk hwr
  have hgen : (Gen.run cwd fs (mk ++ wr0)).2 = .ok () ↔ (Gen.run cwd fs (Gen.ops cfg out suite)).2 = .ok () :=
    (run_ok_iff cwd fs cfg out hn hwt hsrc mk wr0 hmk hwr).trans
      (run_ok_iff cwd fs cfg out hn hwt hsrc _ _ (List.Perm.refl _) (List.Perm.refl _)).symm
  have ok_of : ∀ {x : Fs × Res Unit}, x.2 = .ok () → ∃ f, x = (f, .ok ()) := fun {x} hx => ⟨x.1, Prod.ext rfl hx⟩
  have of_ok : ∀ {x : Fs × Res Unit} {f : Fs}, x = (f, .ok ()) → x.2 = .ok () := fun hx => by rw [hx]
  have hwc : ∀ p v n m tc ctx, Op.write p (.mainCpp v n m tc ctx) ∈ Gen.ops cfg out suite → GoMap.WF ctx.channelTypes := by
    intro p v n m tc ctx hp
    unfold Gen.ops at hp
    rcases List.mem_append.1 hp with hp | hp
    · obtain ⟨c, _, hc⟩ := List.mem_flatMap.1 hp
      obtain ⟨d, _, e⟩ := List.mem_map.1 hc
      cases e
    · obtain ⟨c, _, hc⟩ := List.mem_flatMap.1 hp
      unfold Gen.writeOps at hc
      rcases List.mem_append.1 hc with hc | hc
      · rcases List.mem_append.1 hc with hc | hc
        · rcases List.mem_append.1 hc with hc | hc
          · rcases List.mem_append.1 hc with hc | hc
            · simp [CppGen.copyPrelude] at hc
            · unfold CppGen.generateCommon at hc
              rcases List.mem_append.1 hc with hc | hc
              · split at hc <;> simp at hc
              · simp at hc
          · obtain ⟨nt, _, e⟩ := List.mem_map.1 hc
            cases e
            exact (C48_process c suite.types hwt).2.1
        · cases hk : c.catkin with
          | none => rw [hk] at hc; cases hc
          | some pkg =>
            rw [hk] at hc
            simp [CatkinGen.generate] at hc
      · split at hc
        · simp [MakefileGen.generate] at hc
        · cases hc
  have mem_rel : ∀ {l l' : List Op}, List.Forall₂ OpTo l l' → ∀ op' ∈ l', ∃ op ∈ l, OpTo op op' := by
    intro l l' hl
    induction hl with
    | nil => intro op' h; cases h
    | cons a _ ih =>
      intro op' h
      rcases List.mem_cons.1 h with rfl | h
      · exact ⟨_, by simp, a⟩
      · obtain ⟨op, h1, h2⟩ := ih op' h
        exact ⟨op, by simp [h1], h2⟩
  have back : ∀ p c', Op.write p c' ∈ mk ++ wr → ∃ c, Op.write p c ∈ Gen.ops cfg out suite ∧ ContentTo c c' := by
    intro p c' hm
    obtain ⟨op, h1, h2⟩ := mem_rel hops _ hm
    cases h2 with
    | write h => exact ⟨_, hperm.mem_iff.1 h1, h⟩
    | same => exact ⟨c', hperm.mem_iff.1 h1, .same _⟩
  have forth : ∀ p c, Op.write p c ∈ Gen.ops cfg out suite → ∃ c', Op.write p c' ∈ mk ++ wr ∧ ContentTo c c' := by
    intro p c hm
    obtain ⟨op, h1, h2⟩ := mem_rel hops' _ (hperm.mem_iff.2 hm)
    cases h2 with
    | write h => exact ⟨_, h1, h.symm⟩
    | same => exact ⟨c, h1, .same _⟩
  have ex : ∀ p c c', Op.write p c ∈ Gen.ops cfg out suite → ContentTo c c' → Templates.execute c = Templates.execute c' := by
    intro p c c' hm hc
    refine execute_to hc ?_
    rintro v n m tc ctx rfl
    exact hwc _ _ _ _ _ _ hm
  constructor
  · constructor
    · intro hok
      obtain ⟨f, hf⟩ := ok_of hok
      obtain ⟨h1, h2, h3⟩ := runRead_ok_iff.1 hf
      obtain ⟨g, hg⟩ := run_to_ok hops' h1
      obtain ⟨g', hg'⟩ := ok_of (hgen.1 (of_ok hg))
      refine of_ok (f := g') (runRead_ok_iff.2 ⟨hg', fun p c hm => ?_, fun p v test m tc ctx hm => ?_⟩)
      · obtain ⟨c', hm', hc⟩ := forth p c hm
        rw [ex p c c' hm hc]; exact h2 p c' hm'
      · obtain ⟨c', hm', hc⟩ := forth _ _ hm
        cases hc with
        | mainCpp => exact h3 _ _ _ _ _ _ hm'
        | same => exact h3 _ _ _ _ _ _ hm'
    · intro hok
      obtain ⟨f, hf⟩ := ok_of hok
      obtain ⟨h1, h2, h3⟩ := runRead_ok_iff.1 hf
      obtain ⟨g, hg⟩ := ok_of (hgen.2 (of_ok h1))
      obtain ⟨g', hg'⟩ := run_to_ok hops hg
      refine of_ok (f := g') (runRead_ok_iff.2 ⟨hg', fun p c' hm => ?_, fun p v test m tc ctx hm => ?_⟩)
      · obtain ⟨c, hm', hc⟩ := back p c' hm
        rw [← ex p c c' hm' hc]; exact h2 p c hm'
      · obtain ⟨c, hm', hc⟩ := back _ _ hm
        cases hc with
        | mainCpp => exact h3 _ _ _ _ _ _ hm'
        | same => exact h3 _ _ _ _ _ _ hm'
  · intro fs0 fs1 hwf hv h0 h1
    have g0 := (runRead_ok_iff.1 h0).1
    have g1 := (runRead_ok_iff.1 h1).1
    obtain ⟨g, hg⟩ := ok_of (hgen.2 (of_ok g0))
    have hal : ∀ op ∈ mk ++ wr0, Allowed cwd (fun a c => ∃ p, locate cwd p = a ∧ Op.write p c ∈ Gen.ops cfg out suite) op := by
      intro op hop
      have hop' := hperm.mem_iff.1 hop
      cases op with
      | mkdir p => trivial
      | write p c => exact ⟨p, rfl, hop'⟩
      | copy s d =>
        rintro c ⟨p, hp, hm⟩
        exact absurd hp (no_copy hn hwt hsrc hop' hm)
    obtain ⟨g', hg', hto⟩ := run_to hops (FsTo.refl fs) hal hg
    rw [g1] at hg'
    cases hg'
    have e : fs0 = g := by
      have g0' := g0
      rw [run_eq, ops_resolve] at g0'
      rw [run_eq] at hg
      have hp' : (lmk cwd cfg out suite ++ lwr cwd cfg out suite).Perm ((mk ++ wr0).map (Op.resolve cwd)) := by
        rw [← ops_resolve]; exact (hperm.map _).symm
      have hmk0 : (lmk cwd cfg out suite).filterMap LOp.file? = [] := by
        rw [List.filterMap_eq_nil_iff]
        intro op hop
        obtain ⟨r, _, rfl⟩ := lmk_inside cwd cfg out hn hop
        rfl
      refine runL_perm hp' g0' hg ?_ ?_
      · rw [List.filterMap_append, hmk0, List.nil_append]
        exact nodup_lwr cwd cfg out hn hwf hv
      · intro s d hop hs
        rw [List.filterMap_append, hmk0, List.nil_append] at hs
        rcases List.mem_append.1 hop with hop | hop
        · obtain ⟨r, _, e⟩ := lmk_inside cwd cfg out hn hop
          cases e
        · obtain ⟨c, hc, ⟨hb, e⟩ | ⟨rc, _, e⟩⟩ := (mem_lwr cwd cfg out hn _).1 hop
          · cases e
            obtain ⟨o, ho, e⟩ := List.mem_filterMap.1 hs
            obtain ⟨r, _, e'⟩ := lwr_inside cwd cfg out hn ho
            rw [e'] at e
            exact hsrc c hc ((needsConversion_iff hwt).1 hb) (by rw [← Option.some.inj e]; exact List.prefix_append _ _)
          · cases e
    rw [e]
    exact hto

end Order

end Rtcg
