import Verif.Proofs.Templates

/-
C73–: what the templates fail on, declare and refer to.
-/

namespace Rtcg

open Spec

/-! ### C73 -/

/-- What rtcg-make-stms writes reads back as a suite made from the validated tests it was given. -/
theorem C73_make_stms (input out : Json) (s : Validate.Suite) (vs : GoMap Str Validate.Test) (r : StmSuite)
    (hs : Json.decodeSuite input = .ok s) (hv : Validate.fullSuite s = .ok vs) (hout : makeStmsProgram input = .ok out)
    (hn : ∀ nt ∈ vs, AllEvents (fun e => e.channel.name ≠ []) nt.2.root) (hr : Json.decodeStmSuite out = .ok r) : MadeFrom vs r := by
  obtain ⟨b, r₀, r', h1, h2, h3⟩ := C56_output input out s vs hs hv hout hn
  rw [hr] at h2
  cases h2
  obtain ⟨hwf, hval⟩ := C36_validated s (Json.decodeMap_wf hs) vs hv
  obtain ⟨w1, w2, w3⟩ := Json.decodeStmSuite_maps hr
  exact ⟨hwf, hval, ⟨_, _, _, h1, h3⟩, w1, w2, w3⟩

theorem sameState_refl (s : State) : SameState s s := ⟨rfl, rfl, fun _ => rfl⟩

theorem sameStm_refl (m : Stm) : SameStm m m :=
  ⟨List.forall₂_same.2 fun s _ => sameState_refl s, fun _ => rfl, List.Perm.refl _⟩

/-- A suite just built is made from its tests, in particular. -/
theorem C73_built (b b' : Builder) (ts : GoMap Str Validate.Test) (hwf : GoMap.WF ts) (hv : Validated ts) (r : StmSuite)
    (h : b.buildSuite ts = .ok (b', r)) : MadeFrom ts r := by
  have hk := (C36_result b b' ts hwf hv r h).1
  refine ⟨hwf, hv, ⟨b, b', r, h, fun _ => rfl, fun k => ?_⟩, (suite_types hwf hv h).1, by unfold GoMap.WF; rw [hk]; exact hwf, ?_⟩
  · cases GoMap.get? r.tests k with
    | none => exact .none
    | some m => exact .some (sameStm_refl m)
  · intro k m hm
    obtain ⟨t, b₁, t', ht, hb⟩ := suite_machine hwf hv h hm
    exact stm_maps (hv _ ht) hb

namespace Templates

theorem typeOf_toBool (t : Option CppConfig.ChannelType) : (typeOf t).toBool = true ↔ ∃ ct ty, t = some ct ∧ ct.base = some ty := by
  unfold typeOf
  cases t with
  | none => simp [throwErr, Except.toBool]
  | some ct =>
    cases h : ct.base with
    | none => simp [h, throwErr, Except.toBool]
    | some ty => simp [h, Except.toBool]

theorem convertH_ok_iff (c : CppConfig.Config) (types : TypeMap) (hwf : GoMap.WF types) :
    convertH (c.process types) = .ok () ↔ ∀ name o, (name, o) ∈ types → o ≠ none := by
  obtain ⟨_, hw, hg, _⟩ := C48_process c types hwf
  unfold convertH
  constructor
  · intro h
    split at h
    · rename_i ha
      rw [List.all_eq_true] at ha
      intro name o ho
      have hm := hg name
      rw [GoMap.get?_of_mem hwf ho] at hm
      have := ha _ (GoMap.mem_of_get? hm)
      obtain ⟨ct, ty, e, hb⟩ := (typeOf_toBool _).1 this
      cases e
      simp only at hb
      simp [hb]
    · cases h
  · intro h
    rw [if_pos]
    rw [List.all_eq_true]
    rintro ⟨name, ct⟩ hm
    have := hg name
    rw [GoMap.get?_of_mem hw hm] at this
    obtain ⟨o, ho, rfl⟩ := Option.map_eq_some_iff.1 this.symm
    have hne := h name o (GoMap.mem_of_get? ho)
    obtain ⟨ty, rfl⟩ := Option.ne_none_iff_exists'.1 hne
    exact (typeOf_toBool _).2 ⟨_, ty, rfl, rfl⟩

theorem mem_aggregates (m : Stm) (c : Channel) : (∃ a ∈ m.aggregates, a.channel = c) ↔ UsesChannel m c := by
  have : (∃ a ∈ m.aggregates, a.channel = c) ↔ c ∈ m.aggregates.map (·.channel) := by simp
  rw [this, (C38_aggregates m).1, mem_firstUses]
  simp [UsesChannel]

theorem mem_out (m : Stm) (c : Channel) : (∃ a ∈ (TransitionContext.make m).out, a.channel = c) ↔ UsesChannel m c ∧ c.kind ≠ kIn := by
  rw [(C39_partition m).2.2.2]
  simp only [List.mem_filter, decide_eq_true_eq]
  rw [← mem_aggregates]
  constructor
  · rintro ⟨a, ⟨ha, hk⟩, rfl⟩; exact ⟨⟨a, ha, rfl⟩, hk⟩
  · rintro ⟨⟨a, ha, rfl⟩, hk⟩; exact ⟨a, ⟨ha, hk⟩, rfl⟩

theorem mem_in (m : Stm) (c : Channel) : (∃ a ∈ (TransitionContext.make m).in_, a.channel = c) ↔ UsesChannel m c ∧ c.kind = kIn := by
  rw [(C39_partition m).2.2.1]
  simp only [List.mem_filter, decide_eq_true_eq]
  rw [← mem_aggregates]
  constructor
  · rintro ⟨a, ⟨ha, hk⟩, rfl⟩; exact ⟨⟨a, ha, rfl⟩, hk⟩
  · rintro ⟨⟨a, ha, rfl⟩, hk⟩; exact ⟨a, ⟨ha, hk⟩, rfl⟩

theorem inMerged_wf (m : Stm) : GoMap.WF (TransitionContext.make m).inMerged := by
  rw [make_eq]; exact mergeAll_wf GoMap.wf_nil _

end Templates

/-- When the templates fail: convert.h exactly on a type map with a null type; main.cpp exactly on a machine without states, with a
state all of whose input sets are empty, or (animate only) with an output channel that has no type. -/
theorem C73_fails_iff (c : CppConfig.Config) (types : TypeMap) (hwf : GoMap.WF types) (v : Variant) (m : Stm) :
    (Templates.convertH (c.process types) = .ok () ↔ ∀ name o, (name, o) ∈ types → o ≠ none) ∧
    (Templates.mainCpp v m (TransitionContext.make m) (c.process types) = .ok () ↔
      m.states ≠ [] ∧
      (∀ s ∈ m.states, (∃ ts ∈ s.transitionSets, ts.channel.kind = kIn) → inputsAt m s.id ≠ []) ∧
      (v = Variant.animate → ∀ ch, UsesChannel m ch → ch.kind ≠ kIn → ∃ ty, GoMap.get? types ch.name = some (some ty))) := by
  refine ⟨Templates.convertH_ok_iff c types hwf, ?_⟩
  obtain ⟨_, hw, hg, _⟩ := C48_process c types hwf
  have e1 : ((TransitionContext.make m).hasIn && (TransitionContext.make m).inMerged.any (fun sts => sts.2.length = 0)) = true ↔
      ¬ ∀ s ∈ m.states, (∃ ts ∈ s.transitionSets, ts.channel.kind = kIn) → inputsAt m s.id ≠ [] := by
    rw [Bool.and_eq_true, (C39_hasIn m).2, List.any_eq_true]
    constructor
    · rintro ⟨_, ⟨sid, l⟩, hx, hl⟩ hall
      simp only [decide_eq_true_eq, List.length_eq_zero_iff] at hl
      subst hl
      have hget := GoMap.get?_of_mem (Templates.inMerged_wf m) hx
      obtain ⟨h1, h2⟩ := C39_inMerged m sid
      have hne : ¬ (GoMap.get? (TransitionContext.make m).inMerged sid = none) := by rw [hget]; simp
      rw [h1, not_not] at hne
      obtain ⟨s, hs, rfl, hk⟩ := hne
      exact hall s hs hk (List.Perm.nil_eq (h2 _ hget).2).symm
    · intro hall
      push Not at hall
      obtain ⟨s, hs, ⟨ts, hts, hk⟩, hemp⟩ := hall
      refine ⟨⟨s, hs, ts, hts, hk⟩, ?_⟩
      obtain ⟨h1, h2⟩ := C39_inMerged m s.id
      cases hget : GoMap.get? (TransitionContext.make m).inMerged s.id with
      | none => exact absurd ⟨s, hs, rfl, ts, hts, hk⟩ (h1.1 hget)
      | some l =>
        refine ⟨(s.id, l), GoMap.mem_of_get? hget, ?_⟩
        have := (h2 l hget).2
        rw [hemp] at this
        simp [this.eq_nil]
  have e2 : (TransitionContext.make m).out.any (fun a => !(Templates.typeOf (GoMap.get? (c.process types).channelTypes a.channel.name)).toBool) = true ↔
      ¬ ∀ ch, UsesChannel m ch → ch.kind ≠ kIn → ∃ ty, GoMap.get? types ch.name = some (some ty) := by
    have hty : ∀ n, (Templates.typeOf (GoMap.get? (c.process types).channelTypes n)).toBool = true ↔
        ∃ ty, GoMap.get? types n = some (some ty) := by
      intro n
      rw [Templates.typeOf_toBool, hg]
      constructor
      · rintro ⟨ct, ty, h1, h2⟩
        obtain ⟨o, ho, rfl⟩ := Option.map_eq_some_iff.1 h1
        simp only at h2
        exact ⟨ty, by rw [ho, h2]⟩
      · rintro ⟨ty, h⟩
        exact ⟨_, ty, by rw [h]; rfl, rfl⟩
    rw [List.any_eq_true]
    constructor
    · rintro ⟨a, ha, h⟩ hall
      obtain ⟨h1, h2⟩ := (Templates.mem_out m a.channel).1 ⟨a, ha, rfl⟩
      have := (hty a.channel.name).2 (hall _ h1 h2)
      rw [this] at h; cases h
    · intro hall
      push Not at hall
      obtain ⟨ch, h1, h2, h3⟩ := hall
      obtain ⟨a, ha, rfl⟩ := (Templates.mem_out m ch).2 ⟨h1, h2⟩
      refine ⟨a, ha, ?_⟩
      rw [Bool.not_eq_true', Bool.eq_false_iff, Ne, hty]
      rintro ⟨ty, h⟩
      exact h3 ty h
  unfold Templates.mainCpp
  by_cases h0 : m.states = []
  · rw [if_pos (by simp [h0])]
    exact iff_of_false (by simp [throwErr]) (fun h => h.1 h0)
  · rw [if_neg (by simpa using h0)]
    by_cases h1 : ∀ s ∈ m.states, (∃ ts ∈ s.transitionSets, ts.channel.kind = kIn) → inputsAt m s.id ≠ []
    · rw [if_neg (by rw [e1]; exact not_not.2 h1)]
      by_cases hva : v = Variant.animate
      · by_cases h2 : ∀ ch, UsesChannel m ch → ch.kind ≠ kIn → ∃ ty, GoMap.get? types ch.name = some (some ty)
        · rw [if_neg (by rw [Bool.and_eq_true, e2]; exact fun h => h.2 h2)]
          exact iff_of_true rfl ⟨h0, h1, fun _ => h2⟩
        · rw [if_pos (by rw [Bool.and_eq_true, e2]; exact ⟨by simpa using hva, h2⟩)]
          exact iff_of_false (by simp [throwErr]) (fun h => h2 (h.2.2 hva))
      · rw [if_neg (by rw [Bool.and_eq_true]; exact fun h => hva (by simpa using h.1))]
        exact iff_of_true rfl ⟨h0, h1, fun h => absurd h hva⟩
    · rw [if_pos (e1.2 h1)]
      exact iff_of_false (by simp [throwErr]) (fun h => h1 h.2.1)

/-- C73: on a suite made by rtcg-make-stms no template fails, in any variant and configuration. -/
theorem C73_templates_succeed (ts : GoMap Str Validate.Test) (r : StmSuite) (h : MadeFrom ts r) (c : CppConfig.Config) (v : Variant) :
    Templates.convertH (c.process r.types) = .ok () ∧
    ∀ name m, (name, m) ∈ r.tests → Templates.mainCpp v m (TransitionContext.make m) (c.process r.types) = .ok () := by
  have w1 := h.2.2.2.1
  constructor
  · rw [(C73_fails_iff c r.types w1 v ⟨[], [], []⟩).1]
    obtain ⟨hwf, hv, ⟨b, b', r₀, hb, hty, _⟩, _⟩ := h
    intro name o ho
    obtain ⟨_, _, htypes⟩ := C36_result b b' ts hwf hv r₀ hb
    have hg := GoMap.get?_of_mem w1 ho
    rw [← hty name] at hg
    obtain ⟨ty, rfl, _⟩ := (htypes name).2 o hg
    simp
  · intro name m hm
    obtain ⟨t, ht, ok⟩ := madeFrom_machine h hm
    rw [(C73_fails_iff c r.types w1 v m).2]
    refine ⟨?_, ?_, ?_⟩
    · obtain ⟨s, hs, _⟩ := ok.head
      intro h0; rw [h0] at hs; cases hs
    · rintro s hs ⟨x, hx, hk⟩ h0
      obtain ⟨tr, htr⟩ := List.exists_mem_of_ne_nil _ (ok.sets s hs x hx)
      have : tr ∈ inputsAt m s.id := by
        unfold inputsAt
        simp only [List.mem_flatMap, List.mem_filter, decide_eq_true_eq]
        exact ⟨s, ⟨hs, rfl⟩, x, ⟨hx, hk⟩, htr⟩
      rw [h0] at this; cases this
    · rintro _ ch ⟨s, hs, x, hx, rfl⟩ _
      obtain ⟨tr, htr⟩ := List.exists_mem_of_ne_nil _ (ok.sets s hs x hx)
      obtain ⟨ty, hty, _⟩ := ok.typed s hs x hx tr htr
      exact ⟨ty, hty⟩

namespace Templates

theorem run_eq_of_ok (cwd : Loc) (ops : List Op) (hok : ∀ p c, Op.write p c ∈ ops → execute c = .ok ()) (fs : Fs) :
    run cwd fs ops = Gen.run cwd fs ops := by
  induction ops generalizing fs with
  | nil => rfl
  | cons op ops ih =>
    have ih' := ih (fun p c h => hok p c (by simp [h]))
    unfold run Gen.run runOp
    cases h : Gen.runOp cwd fs op with
    | error e => rfl
    | ok fs' =>
      cases op with
      | mkdir p => exact ih' fs'
      | copy s d => exact ih' fs'
      | write p c =>
        simp only [hok p c (by simp)]
        exact ih' fs'

end Templates

/-- … so the whole of rtcg-gen behaves as if templates could not fail, and everything proved of it (C49–C52, C65–C67) holds. -/
theorem C73_generation (cwd : Loc) (fs : Fs) (clean : Bool) (output : Str) (cfg : GenConfig) (ts : GoMap Str Validate.Test) (r : StmSuite)
    (h : MadeFrom ts r) :
    Templates.action cwd fs clean output cfg r = Gen.action cwd fs clean output cfg r := by
  have hok : ∀ p c, Op.write p c ∈ Gen.ops cfg (cleanPath output) r → Templates.execute c = .ok () := by
    intro p c hc
    unfold Gen.ops at hc
    rcases List.mem_append.1 hc with hc | hc
    · obtain ⟨cpp, _, hc⟩ := List.mem_flatMap.1 hc
      unfold Gen.mkdirOps at hc
      obtain ⟨_, _, hc⟩ := List.mem_map.1 hc
      cases hc
    · obtain ⟨cpp, _, hc⟩ := List.mem_flatMap.1 hc
      unfold Gen.writeOps CppGen.generate at hc
      simp only [List.mem_append] at hc
      rcases hc with ((((hc | hc) | hc) | hc) | hc)
      · unfold CppGen.copyPrelude at hc
        obtain ⟨_, _, hc⟩ := List.mem_map.1 hc
        cases hc; rfl
      · unfold CppGen.generateCommon at hc
        rcases List.mem_append.1 hc with hc | hc
        · split at hc <;> simp at hc
        · simp only [List.mem_singleton, Op.write.injEq] at hc
          rw [hc.2]
          exact (C73_templates_succeed ts r h cpp cpp.variant).1
      · unfold CppGen.generateTests at hc
        obtain ⟨⟨n, m⟩, hm, hc⟩ := List.mem_map.1 hc
        cases hc
        exact (C73_templates_succeed ts r h cpp cpp.variant).2 n m hm
      · split at hc
        · cases hc
        · unfold CatkinGen.generate at hc
          obtain ⟨_, _, hc⟩ := List.mem_flatMap.1 hc
          simp only [List.mem_cons, Op.write.injEq, List.not_mem_nil, or_false] at hc
          rcases hc with hc | hc <;> (rw [hc.2]; rfl)
      · split at hc
        · unfold MakefileGen.generate at hc
          simp only [List.mem_singleton, Op.write.injEq] at hc
          rw [hc.2]; rfl
        · cases hc
  cases hm : Gen.maybeClean cwd fs clean (cleanPath output) with
  | mk f res =>
    cases res with
    | error e => rw [action_error hm]; simp only [Templates.action, hm]
    | ok u => rw [action_ok hm]; simp only [Templates.action, hm]; exact Templates.run_eq_of_ok cwd _ hok f

/-- A suite written by hand, with a null type, passes rtcg-gen's reader but makes it fail half way. -/
theorem C73_needs_made : ∃ r : StmSuite, (∃ j, Json.decodeStmSuite j = .ok r) ∧
    ∀ c : CppConfig.Config, Templates.convertH (c.process r.types) ≠ .ok () := by
  refine ⟨⟨[(c!"a", none)], []⟩, ⟨.obj [(c!"types", .obj [(c!"a", .null)])], by rfl⟩, fun c h => ?_⟩
  have := (C73_fails_iff c _ (by unfold GoMap.WF; simp) .ros ⟨[], [], []⟩).1.1 h c!"a" none (by simp)
  exact this rfl

/-- A suite of two tests and what it is made from. -/
theorem exMade : ∃ ts r, MadeFrom ts r ∧ r.tests.length = 2 ∧ ∀ nt ∈ ts, NoIds nt.2.root := by
  let ts : GoMap Str Validate.Test := [(c!"x", ⟨exTree⟩), (c!"y", ⟨Forbidden.expand ⟨[], [], ⟨⟨c!"a", .in_⟩, .int 7⟩⟩ c!"y"⟩)]
  have hv : Validated ts := by
    intro nt hnt
    have : WellFormed nt.2.root := by
      simp only [ts, List.mem_cons, List.not_mem_nil, or_false] at hnt
      rcases hnt with rfl | rfl
      · exact expand_wellFormed _ _
      · exact expand_wellFormed _ _
    exact (full_ok_iff _ _).2 ⟨rfl, this⟩
  have hwf : GoMap.WF ts := by simp [ts, GoMap.WF]
  refine ⟨ts, _, C73_built Builder.zero _ ts hwf hv _ (by rfl), by rfl, ?_⟩
  intro nt hnt
  simp only [ts, List.mem_cons, List.not_mem_nil, or_false] at hnt
  rcases hnt with rfl | rfl
  · exact C29_expand_noIds _ _
  · exact C29_expand_noIds _ _

/-! ### C74 -/

namespace Templates

theorem transitionsOn_mem {m : Stm} {c : Channel} {sid : Str} {t : Transition} (h : t ∈ transitionsOn m c sid) :
    ∃ s ∈ m.states, s.id = sid ∧ ∃ ts ∈ s.transitionSets, ts.channel = c ∧ t ∈ ts.transitions := by
  unfold transitionsOn at h
  simp only [List.mem_flatMap, List.mem_filter, decide_eq_true_eq] at h
  obtain ⟨s, ⟨hs, rfl⟩, ts, ⟨hts, rfl⟩, ht⟩ := h
  exact ⟨s, hs, rfl, ts, hts, rfl, ht⟩

theorem agg_entry {m : Stm} {a : AggregateSet} (ha : a ∈ m.aggregates) {sid : Str} {l : List Transition} (h : (sid, l) ∈ a.states) :
    (∃ s ∈ m.states, s.id = sid) ∧ ∀ t ∈ l, ∃ s ∈ m.states, ∃ ts ∈ s.transitionSets, t ∈ ts.transitions := by
  obtain ⟨hw, h2⟩ := (C38_aggregates m).2 a ha
  have hg := GoMap.get?_of_mem hw h
  obtain ⟨h3, h4⟩ := h2 sid
  constructor
  · by_contra hno
    have := h3.2 (fun ⟨s, hs, he, _⟩ => hno ⟨s, hs, he⟩)
    rw [hg] at this; cases this
  · intro t ht
    rw [h4 l hg] at ht
    obtain ⟨s, hs, _, ts, hts, _, ht⟩ := transitionsOn_mem ht
    exact ⟨s, hs, ts, hts, ht⟩

theorem merged_entry {m : Stm} {sid : Str} {l : List Transition} (h : (sid, l) ∈ (TransitionContext.make m).inMerged) :
    (∃ s ∈ m.states, s.id = sid) ∧ ∀ t ∈ l, ∃ s ∈ m.states, ∃ ts ∈ s.transitionSets, t ∈ ts.transitions := by
  have hg := GoMap.get?_of_mem (inMerged_wf m) h
  obtain ⟨h3, h4⟩ := C39_inMerged m sid
  constructor
  · by_contra hno
    have := h3.2 (fun ⟨s, hs, he, _⟩ => hno ⟨s, hs, he⟩)
    rw [hg] at this; cases this
  · intro t ht
    rw [(h4 l hg).1] at ht
    obtain ⟨c, _, ht⟩ := List.mem_flatMap.1 ht
    obtain ⟨s, hs, _, ts, hts, _, ht⟩ := transitionsOn_mem ht
    exact ⟨s, hs, ts, hts, ht⟩

theorem out_mem_aggregates {m : Stm} {a : AggregateSet} (ha : a ∈ (TransitionContext.make m).out) : a ∈ m.aggregates := by
  rw [(C39_partition m).2.2.2] at ha
  exact (List.mem_filter.1 ha).1

end Templates

/-- C74: everything main.cpp refers to is declared: the entry functions called (in class StateMachine), the verdict setters called (in
class Verdict), the states in case labels (in enum State), and the conversion functions and message types (in convert.h). -/
theorem C74_declared (ts : GoMap Str Validate.Test) (r : StmSuite) (h : MadeFrom ts r) (U : Unicode) (c : CppConfig.Config) (v : Variant)
    (name : Str) (m : Stm) (hm : (name, m) ∈ r.tests) :
    (∀ x ∈ Templates.entriesCalled U m, x ∈ Templates.classMembers U v m) ∧
    (∀ x ∈ Templates.settersCalled m, x ∈ Templates.verdictMembers m) ∧
    (∀ x ∈ Templates.caseLabels U m, x ∈ Templates.stateMembers U m) ∧
    (∀ x ∈ Templates.convertUsed U v m, x ∈ Templates.convertNames U (c.process r.types)) := by
  obtain ⟨t, ht, ok⟩ := madeFrom_machine h hm
  have hentry : ∀ s ∈ m.states, Cpp.stateEntry U s.id ∈ Templates.classMembers U v m := by
    intro s hs
    unfold Templates.classMembers
    simp only [List.mem_append, List.mem_map]
    exact .inl (.inr ⟨s, hs, rfl⟩)
  have hnext : ∀ tr : Transition, (∃ s ∈ m.states, ∃ x ∈ s.transitionSets, tr ∈ x.transitions) →
      Cpp.stateEntry U tr.next ∈ Templates.classMembers U v m := by
    rintro tr ⟨s, hs, x, hx, htr⟩
    obtain ⟨s', hs', he⟩ := ok.closed s hs x hx tr htr
    rw [← he]; exact hentry s' hs'
  refine ⟨?_, ?_, ?_, ?_⟩
  · intro x hx
    unfold Templates.entriesCalled at hx
    simp only [List.mem_append] at hx
    rcases hx with (hx | hx) | hx
    · obtain ⟨s, hs, rfl⟩ := List.mem_map.1 hx
      exact hentry s (List.mem_of_mem_head? (by simpa using hs))
    · split at hx
      · obtain ⟨⟨sid, l⟩, hl, hx⟩ := List.mem_flatMap.1 hx
        obtain ⟨tr, htr, rfl⟩ := List.mem_map.1 hx
        have : tr ∈ l := List.mem_of_mem_head? (by simpa using htr)
        exact hnext tr ((Templates.merged_entry hl).2 tr this)
      · cases hx
    · obtain ⟨a, ha, hx⟩ := List.mem_flatMap.1 hx
      obtain ⟨⟨sid, l⟩, hl, hx⟩ := List.mem_flatMap.1 hx
      obtain ⟨tr, htr, rfl⟩ := List.mem_map.1 hx
      exact hnext tr ((Templates.agg_entry (Templates.out_mem_aggregates ha) hl).2 tr htr)
  · intro x hx
    obtain ⟨s, hs, hx⟩ := List.mem_flatMap.1 hx
    unfold Templates.verdictMembers
    simp only [List.mem_append]
    exact .inl (.inr (ok.verdicts s hs x hx))
  · have hst : ∀ sid, (∃ s ∈ m.states, s.id = sid) → Cpp.stateEnum U sid ∈ Templates.stateMembers U m := by
      rintro sid ⟨s, hs, rfl⟩
      exact List.mem_map.2 ⟨s, hs, rfl⟩
    intro x hx
    unfold Templates.caseLabels at hx
    rcases List.mem_append.1 hx with hx | hx
    · split at hx
      · obtain ⟨⟨sid, l⟩, hl, rfl⟩ := List.mem_map.1 hx
        exact hst sid (Templates.merged_entry hl).1
      · cases hx
    · obtain ⟨a, ha, hx⟩ := List.mem_flatMap.1 hx
      obtain ⟨⟨sid, l⟩, hl, rfl⟩ := List.mem_map.1 hx
      exact hst sid (Templates.agg_entry (Templates.out_mem_aggregates ha) hl).1
  · obtain ⟨_, hw, hg, _⟩ := C48_process c r.types h.2.2.2.1
    have hkey : ∀ ch, UsesChannel m ch → ch.name ∈ (c.process r.types).channelTypes.keys := by
      rintro ch ⟨s, hs, x, hx, rfl⟩
      obtain ⟨tr, htr⟩ := List.exists_mem_of_ne_nil _ (ok.sets s hs x hx)
      obtain ⟨ty, hty, _⟩ := ok.typed s hs x hx tr htr
      by_contra hno
      have := GoMap.get?_eq_none_iff.2 hno
      rw [hg, hty] at this
      cases this
    intro x hx
    unfold Templates.convertUsed at hx
    unfold Templates.convertNames
    simp only [List.mem_append, List.mem_map]
    rcases List.mem_append.1 hx with hx | hx
    · obtain ⟨a, ha, hx⟩ := List.mem_flatMap.1 hx
      have hk := hkey a.channel ((Templates.mem_out m a.channel).1 ⟨a, ha, rfl⟩).1
      simp only [List.mem_append, List.mem_cons, List.not_mem_nil, or_false] at hx
      rcases hx with (rfl | rfl) | hx
      · exact .inl (.inl (.inr ⟨_, hk, rfl⟩))
      · exact .inl (.inr ⟨_, hk, rfl⟩)
      · split at hx
        · simp only [List.mem_singleton] at hx; subst hx; exact .inr ⟨_, hk, rfl⟩
        · cases hx
    · obtain ⟨a, ha, hx⟩ := List.mem_flatMap.1 hx
      have hk := hkey a.channel ((Templates.mem_in m a.channel).1 ⟨a, ha, rfl⟩).1
      simp only [List.mem_append, List.mem_cons, List.not_mem_nil, or_false] at hx
      rcases hx with rfl | hx
      · exact .inr ⟨_, hk, rfl⟩
      · split at hx
        · simp only [List.mem_singleton] at hx; subst hx; exact .inl (.inl (.inl ⟨_, hk, rfl⟩))
        · cases hx

example : ∃ ts r name m, MadeFrom ts r ∧ (name, m) ∈ r.tests := by
  obtain ⟨ts, r, h, hl, _⟩ := exMade
  match hr : r.tests, hl with
  | (n, m) :: _, _ => exact ⟨ts, r, n, m, h, by rw [hr]; simp⟩

/-! ### C75 -/

namespace Templates

theorem nodup_channels (m : Stm) : (m.aggregates.map (·.channel)).Nodup := by
  rw [(C38_aggregates m).1]; exact firstUses_nodup _

theorem hasIn_iff (m : Stm) : (TransitionContext.make m).hasIn = true ↔ SendsInput m := by
  rw [(C39_hasIn m).2]
  constructor
  · rintro ⟨s, hs, ts, hts, hk⟩; exact ⟨ts.channel, ⟨s, hs, ts, hts, rfl⟩, hk⟩
  · rintro ⟨_, ⟨s, hs, ts, hts, rfl⟩, hk⟩; exact ⟨s, hs, ts, hts, hk⟩

theorem nodup_by {α β : Type} {l : List α} {g : α → Channel} (hl : (l.map g).Nodup) (f : Channel → β) :
    (l.map (fun a => f (g a))).Nodup ↔ ∀ a ∈ l, ∀ a' ∈ l, f (g a) = f (g a') → g a = g a' := by
  have e : l.map (fun a => f (g a)) = (l.map g).map f := by simp
  rw [e]
  constructor
  · intro h a ha a' ha' hf
    exact List.inj_on_of_nodup_map h (List.mem_map_of_mem ha) (List.mem_map_of_mem ha') hf
  · intro h
    apply List.Nodup.map_on _ hl
    intro x hx y hy hf
    obtain ⟨a, ha, rfl⟩ := List.mem_map.1 hx
    obtain ⟨a', ha', rfl⟩ := List.mem_map.1 hy
    exact h a ha a' ha' hf

theorem nodup_out (m : Stm) (f : Str → Str) :
    ((TransitionContext.make m).out.map (fun a => f a.channel.name)).Nodup ↔ DistinctBy f m IsOut := by
  have hl : ((TransitionContext.make m).out.map (·.channel)).Nodup := by
    rw [(C39_partition m).2.2.2]
    exact (List.filter_sublist.map _).nodup (nodup_channels m)
  rw [nodup_by (g := fun a : AggregateSet => a.channel) hl (fun c => f c.name)]
  constructor
  · intro h c c' h1 h2 h3 h4 hf
    obtain ⟨a, ha, rfl⟩ := (mem_out m c).2 ⟨h1, h3⟩
    obtain ⟨a', ha', rfl⟩ := (mem_out m c').2 ⟨h2, h4⟩
    exact h a ha a' ha' hf
  · intro h a ha a' ha' hf
    obtain ⟨h1, h3⟩ := (mem_out m a.channel).1 ⟨a, ha, rfl⟩
    obtain ⟨h2, h4⟩ := (mem_out m a'.channel).1 ⟨a', ha', rfl⟩
    exact h _ _ h1 h2 h3 h4 hf

theorem nodup_in (m : Stm) (f : Str → Str) :
    ((TransitionContext.make m).in_.map (fun a => f a.channel.name)).Nodup ↔ DistinctBy f m IsIn := by
  have hl : ((TransitionContext.make m).in_.map (·.channel)).Nodup := by
    rw [(C39_partition m).2.2.1]
    exact (List.filter_sublist.map _).nodup (nodup_channels m)
  rw [nodup_by (g := fun a : AggregateSet => a.channel) hl (fun c => f c.name)]
  constructor
  · intro h c c' h1 h2 h3 h4 hf
    obtain ⟨a, ha, rfl⟩ := (mem_in m c).2 ⟨h1, h3⟩
    obtain ⟨a', ha', rfl⟩ := (mem_in m c').2 ⟨h2, h4⟩
    exact h a ha a' ha' hf
  · intro h a ha a' ha' hf
    obtain ⟨h1, h3⟩ := (mem_in m a.channel).1 ⟨a, ha, rfl⟩
    obtain ⟨h2, h4⟩ := (mem_in m a'.channel).1 ⟨a', ha', rfl⟩
    exact h _ _ h1 h2 h3 h4 hf

/-- The members of StateMachine whose names do not depend on channels and states. -/
def fixed (fsi hi : Bool) : List Str :=
  [c!"getVerdict", c!"timeoutCallback"] ++ (if fsi then [c!"initialDelayCallback"] else []) ++
    (if hi then [c!"inputAcceptedCallback"] else []) ++ [c!"verdict_", c!"state_"] ++ [c!"stateName", c!"end"] ++ inherited

theorem fixed_nodup (a b : Bool) : (fixed a b).Nodup := by cases a <;> cases b <;> decide

theorem members_perm (U : Unicode) (v : Variant) (m : Stm) :
    (classMembers U v m ++ inherited).Perm
      ((TransitionContext.make m).out.map (fun a => Cpp.callbackName a.channel.name) ++
        (stmFields U v (TransitionContext.make m) ++ (m.states.map (fun s => Cpp.stateEntry U s.id) ++
          fixed (TransitionContext.make m).firstStateHasIn (TransitionContext.make m).hasIn))) := by
  rw [List.perm_iff_count]
  intro a
  unfold classMembers fixed
  simp only [List.count_append]
  omega

/-- The last two characters of a name. -/
def lastTwo (s : Str) : Str := s.reverse.take 2

theorem lastTwo_append (x : Str) (a b : Char) (y : Str) : lastTwo (x ++ (y ++ [a, b])) = [b, a] := by
  simp [lastTwo]

theorem lastTwo_callback (x : Str) : lastTwo (Cpp.callbackName x) = ['k', 'c'] := lastTwo_append x 'c' 'k' c!"Callba"

theorem lastTwo_field (x : Str) : lastTwo (x ++ c!"_pub" ++ c!"_") = ['_', 'b'] := by
  rw [List.append_assoc]; exact lastTwo_append x 'b' '_' c!"_pu"

theorem decNat_last (k : Nat) : ∃ d l, decNat k = l ++ [d] ∧ '0' ≤ d ∧ d ≤ '9' := by
  have hne : decNat k ≠ [] := decNat_ne_nil k
  refine ⟨(decNat k).getLast hne, (decNat k).dropLast, (List.dropLast_append_getLast hne).symm, ?_⟩
  exact decNat_digits k _ (List.getLast_mem hne)

/-- An entry function's name ends in a digit, or in al. -/
theorem lastTwo_entry {U : Unicode} (hU : U.AsciiOK) {id : Str} (h : id = c!"initial" ∨ ∃ k, id = c!"step" ++ decNat k) :
    lastTwo (Cpp.stateEntry U id) = ['l', 'a'] ∨ ∃ d x, lastTwo (Cpp.stateEntry U id) = d :: x ∧ '0' ≤ d ∧ d ≤ '9' := by
  rcases h with rfl | ⟨k, rfl⟩
  · left; rw [stateEntry_initial hU]; decide
  · right
    rw [stateEntry_step hU]
    obtain ⟨d, l, hd, h1, h2⟩ := decNat_last k
    refine ⟨d, (l.reverse ++ c!"petSretne").take 1, ?_, h1, h2⟩
    rw [hd]
    simp [lastTwo]

theorem nodup_entries {U : Unicode} (hU : U.AsciiOK) {m : Stm} (hnd : (m.states.map (·.id)).Nodup)
    (hform : ∀ s ∈ m.states, s.id = c!"initial" ∨ ∃ k, s.id = c!"step" ++ decNat k) :
    (m.states.map (fun s => Cpp.stateEntry U s.id)).Nodup ∧ (m.states.map (fun s => Cpp.stateEnum U s.id)).Nodup := by
  have key : ∀ f : Str → Str, (∀ x y, (x = c!"initial" ∨ ∃ k, x = c!"step" ++ decNat k) →
      (y = c!"initial" ∨ ∃ k, y = c!"step" ++ decNat k) → f x = f y → x = y) → (m.states.map (fun s => f s.id)).Nodup := by
    intro f hf
    have e : m.states.map (fun s => f s.id) = (m.states.map (·.id)).map f := by rw [List.map_map]; rfl
    rw [e]
    apply List.Nodup.map_on _ hnd
    intro x hx y hy
    obtain ⟨s, hs, rfl⟩ := List.mem_map.1 hx
    obtain ⟨s', hs', rfl⟩ := List.mem_map.1 hy
    exact hf _ _ (hform s hs) (hform s' hs')
  constructor
  · apply key
    rintro x y (rfl | ⟨k, rfl⟩) (rfl | ⟨l, rfl⟩) he
    · rfl
    · rw [stateEntry_initial hU, stateEntry_step hU] at he; simp at he
    · rw [stateEntry_initial hU, stateEntry_step hU] at he; simp at he
    · rw [stateEntry_step hU, stateEntry_step hU] at he
      rw [decNat_inj (List.append_cancel_left he)]
  · apply key
    rintro x y (rfl | ⟨k, rfl⟩) (rfl | ⟨l, rfl⟩) he
    · rfl
    · rw [stateEnum_initial hU, stateEnum_step hU] at he; simp at he
    · rw [stateEnum_initial hU, stateEnum_step hU] at he; simp at he
    · rw [stateEnum_step hU, stateEnum_step hU] at he
      rw [decNat_inj (List.append_cancel_left he)]

theorem fixed_last {a b : Bool} {x : Str} (h : x ∈ fixed a b) :
    (x = c!"timeoutCallback" ∨ a = true ∧ x = c!"initialDelayCallback" ∨ b = true ∧ x = c!"inputAcceptedCallback") ∨
    lastTwo x ∈ [['t', 'c'], ['_', 't'], ['_', 'e'], ['e', 'm'], ['d', 'n'], ['s', 'u'], ['_', 's']] := by
  cases a <;> cases b <;>
    simp only [fixed, inherited, Bool.false_eq_true, if_true, if_false, List.cons_append, List.nil_append, List.append_nil, List.mem_cons,
      List.not_mem_nil, or_false] at h <;>
    rcases h with rfl | rfl | rfl | rfl | rfl | rfl | rfl | h <;>
    first
    | decide
    | (rcases h with rfl | rfl <;> decide)
    | (rcases h with rfl | rfl | rfl <;> decide)
    | (rcases h with rfl <;> decide)

end Templates

/-- C75: the members of class StateMachine, inherited ones included, have pairwise different names exactly when the output channels have
different names, none is called timeout, none initialDelay (if the test starts with an input) or inputAccepted (if it sends any input),
and, for ROS, the input channels get different topic names. -/
theorem C75_members_partial (ts : GoMap Str Validate.Test) (r : StmSuite) (h : MadeFrom ts r) (hno : ∀ nt ∈ ts, NoIds nt.2.root)
    (U : Unicode) (hU : U.AsciiOK) (v : Variant) (name : Str) (m : Stm) (hm : (name, m) ∈ r.tests) :
    (Templates.classMembers U v m ++ Templates.inherited).Nodup ↔
      DistinctBy id m IsOut ∧ ¬ HasOut m c!"timeout" ∧ ¬ (FirstSendsInput m ∧ HasOut m c!"initialDelay") ∧
      ¬ (SendsInput m ∧ HasOut m c!"inputAccepted") ∧
      (v = Variant.ros → DistinctBy (Strmanip.toLowerUnderscored U) m IsIn) := by
  obtain ⟨t, ht, ok⟩ := madeFrom_machine h hm
  obtain ⟨hids, hform⟩ := ok.ids (hno _ ht)
  rw [(Templates.members_perm U v m).nodup_iff, List.nodup_append, List.nodup_append, List.nodup_append]
  have hent := (Templates.nodup_entries hU hids hform).1
  have hfix := Templates.fixed_nodup (TransitionContext.make m).firstStateHasIn (TransitionContext.make m).hasIn
  have hcb : ∀ x ∈ (TransitionContext.make m).out.map (fun a => Cpp.callbackName a.channel.name), Templates.lastTwo x = ['k', 'c'] := by
    intro x hx
    obtain ⟨a, _, rfl⟩ := List.mem_map.1 hx
    exact Templates.lastTwo_callback _
  have hfd : ∀ x ∈ Templates.stmFields U v (TransitionContext.make m), Templates.lastTwo x = ['_', 'b'] := by
    intro x hx
    unfold Templates.stmFields at hx
    split at hx
    · obtain ⟨a, _, rfl⟩ := List.mem_map.1 hx
      exact Templates.lastTwo_field _
    · cases hx
  have hen : ∀ x ∈ m.states.map (fun s => Cpp.stateEntry U s.id),
      Templates.lastTwo x = ['l', 'a'] ∨ ∃ d y, Templates.lastTwo x = d :: y ∧ '0' ≤ d ∧ d ≤ '9' := by
    intro x hx
    obtain ⟨s, hs, rfl⟩ := List.mem_map.1 hx
    exact Templates.lastTwo_entry hU (hform s hs)
  -- entries against anything whose name ends differently
  have hendiff : ∀ x ∈ m.states.map (fun s => Cpp.stateEntry U s.id), ∀ y, Templates.lastTwo y ∈ ([['k', 'c'], ['_', 'b'], ['t', 'c'],
      ['_', 't'], ['_', 'e'], ['e', 'm'], ['d', 'n'], ['s', 'u'], ['_', 's']] : List Str) → x ≠ y := by
    rintro x hx y hy rfl
    rcases hen x hx with h0 | ⟨d, z, h0, h1, h2⟩
    · rw [h0] at hy; revert hy; decide
    · rw [h0] at hy
      simp only [List.mem_cons, List.cons.injEq, List.not_mem_nil, or_false] at hy
      rcases hy with hy | hy | hy | hy | hy | hy | hy | hy | hy <;>
        (rw [hy.1] at h1 h2; revert h1 h2; decide)
  have hfl : ∀ x ∈ Templates.fixed (TransitionContext.make m).firstStateHasIn (TransitionContext.make m).hasIn,
      Templates.lastTwo x ∈ ([['k', 'c'], ['_', 'b'], ['t', 'c'],
      ['_', 't'], ['_', 'e'], ['e', 'm'], ['d', 'n'], ['s', 'u'], ['_', 's']] : List Str) := by
    intro x hx
    rcases Templates.fixed_last hx with (rfl | ⟨_, rfl⟩ | ⟨_, rfl⟩) | h0
    · decide
    · decide
    · decide
    · exact List.mem_cons_of_mem _ (List.mem_cons_of_mem _ h0)
  have hffix : ∀ x ∈ Templates.stmFields U v (TransitionContext.make m),
      ∀ y ∈ Templates.fixed (TransitionContext.make m).firstStateHasIn (TransitionContext.make m).hasIn, x ≠ y := by
    rintro x hx y hy rfl
    have := hfd x hx
    rcases Templates.fixed_last hy with (rfl | ⟨_, rfl⟩ | ⟨_, rfl⟩) | h0
    · revert this; decide
    · revert this; decide
    · revert this; decide
    · rw [this] at h0; revert h0; decide
  have hout : ∀ n : Str, HasOut m n ↔ Cpp.callbackName n ∈ (TransitionContext.make m).out.map (fun a => Cpp.callbackName a.channel.name) := by
    intro n
    simp only [List.mem_map, Cpp.callbackName, List.append_left_inj]
    constructor
    · rintro ⟨c, h1, h2, rfl⟩
      obtain ⟨a, ha, rfl⟩ := (Templates.mem_out m c).2 ⟨h1, h2⟩
      exact ⟨a, ha, rfl⟩
    · rintro ⟨a, ha, rfl⟩
      obtain ⟨h1, h2⟩ := (Templates.mem_out m a.channel).1 ⟨a, ha, rfl⟩
      exact ⟨_, h1, h2, rfl⟩
  have hcbn : ((TransitionContext.make m).out.map (fun a => Cpp.callbackName a.channel.name)).Nodup ↔ DistinctBy id m IsOut := by
    rw [Templates.nodup_out m Cpp.callbackName]
    unfold DistinctBy Cpp.callbackName
    simp only [List.append_left_inj, id]
  have hfdn : (Templates.stmFields U v (TransitionContext.make m)).Nodup ↔
      (v = Variant.ros → DistinctBy (Strmanip.toLowerUnderscored U) m IsIn) := by
    unfold Templates.stmFields
    by_cases hv : v = Variant.ros
    · rw [if_pos hv]
      have e : (fun a : AggregateSet => Templates.publisherName U a.channel ++ c!"_") =
          fun a => (fun n => Strmanip.toLowerUnderscored U n ++ c!"_pub" ++ c!"_") a.channel.name := rfl
      rw [e]
      refine (Templates.nodup_in m (fun n => Strmanip.toLowerUnderscored U n ++ c!"_pub" ++ c!"_")).trans ?_
      simp only [hv, true_implies]
      unfold DistinctBy
      simp only [List.append_left_inj]
    · rw [if_neg hv]; simp [hv]
  have hfirst := C39_firstStateHasIn m
  have hhas := Templates.hasIn_iff m
  constructor
  · rintro ⟨d1, ⟨d2, ⟨_, _, _⟩, _⟩, d3⟩
    have bad : ∀ n, HasOut m n → Cpp.callbackName n ∉ Templates.fixed (TransitionContext.make m).firstStateHasIn (TransitionContext.make m).hasIn :=
      fun n hn hmem => d3 _ ((hout n).1 hn) _ (by simp [hmem]) rfl
    refine ⟨hcbn.1 d1, ?_, ?_, ?_, hfdn.1 d2⟩
    · intro hn; exact bad _ hn (by simp [Templates.fixed, Cpp.callbackName])
    · rintro ⟨hf, hn⟩
      exact bad _ hn (by simp [Templates.fixed, Cpp.callbackName, hfirst.2 hf])
    · rintro ⟨hf, hn⟩
      exact bad _ hn (by simp [Templates.fixed, Cpp.callbackName, hhas.2 hf])
  · rintro ⟨d1, n1, n2, n3, d2⟩
    refine ⟨hcbn.2 d1, ⟨hfdn.2 d2, ⟨hent, hfix, ?_⟩, ?_⟩, ?_⟩
    · intro x hx y hy; exact hendiff x hx y (hfl y hy)
    · intro x hx y hy
      rcases List.mem_append.1 hy with hy | hy
      · exact (hendiff y hy x (by rw [hfd x hx]; decide)).symm
      · exact hffix x hx y hy
    · intro x hx y hy
      rcases List.mem_append.1 hy with hy | hy
      · rintro rfl
        have := hcb x hx
        rw [hfd x hy] at this; revert this; decide
      rcases List.mem_append.1 hy with hy | hy
      · exact (hendiff y hy x (by rw [hcb x hx]; decide)).symm
      · rintro rfl
        rcases Templates.fixed_last hy with (rfl | ⟨hb, rfl⟩ | ⟨hb, rfl⟩) | h0
        · exact n1 ((hout _).2 hx)
        · exact n2 ⟨hfirst.1 hb, (hout _).2 hx⟩
        · exact n3 ⟨hhas.1 hb, (hout _).2 hx⟩
        · rw [hcb x hx] at h0; revert h0; decide

theorem made_of_trace (f : Forbidden) (name : Str) (b' : Builder) (r : StmSuite)
    (h : Builder.zero.buildSuite [(name, ⟨f.expand name⟩)] = .ok (b', r)) :
    MadeFrom [(name, ⟨f.expand name⟩)] r ∧ ∀ nt ∈ [(name, (⟨f.expand name⟩ : Validate.Test))], NoIds nt.2.root := by
  constructor
  · refine C73_built Builder.zero b' _ (by simp [GoMap.WF]) ?_ r h
    intro nt hnt
    simp only [List.mem_singleton] at hnt
    subst hnt
    exact (full_ok_iff _ _).2 ⟨rfl, expand_wellFormed _ _⟩
  · intro nt hnt
    simp only [List.mem_singleton] at hnt
    subst hnt
    exact C29_expand_noIds _ _

/-- The unconditional claim is false: a trace with an output channel called timeout gives a class with two members of one name. -/
theorem C75_false (U : Unicode) (hU : U.AsciiOK) (v : Variant) : ∃ ts r m, MadeFrom ts r ∧ (∀ nt ∈ ts, NoIds nt.2.root) ∧ (c!"t", m) ∈ r.tests ∧
    ¬ (Templates.classMembers U v m ++ Templates.inherited).Nodup := by
  let f : Forbidden := ⟨[], [], ⟨⟨c!"timeout", .out⟩, .int 1⟩⟩
  obtain ⟨h1, h2⟩ := made_of_trace f c!"t" _ _ (by rfl)
  refine ⟨_, _, _, h1, h2, List.mem_singleton.2 rfl, ?_⟩
  rw [C75_members_partial _ _ h1 h2 U hU v c!"t" _ (List.mem_singleton.2 rfl)]
  rintro ⟨_, hn, _⟩
  exact hn ⟨⟨c!"timeout", .out⟩, ⟨_, List.mem_cons_self .., _, List.mem_singleton.2 rfl, rfl⟩, by unfold IsOut; decide, rfl⟩

/-- The machine of a trace of one output. -/
def exOne (chan : Str) : Stm :=
  ⟨[⟨c!"initial", [⟨⟨chan, .out⟩, [⟨.int 1, c!"step0"⟩]⟩], [(c!"t", oPass)]⟩, ⟨c!"step0", [], [(c!"t", oFail)]⟩],
    [(chan, some ⟨⟨1⟩, ⟨1⟩⟩)], [(c!"t", true)]⟩

theorem exOne_made : ∃ ts, MadeFrom ts ⟨[(c!"moved", some ⟨⟨1⟩, ⟨1⟩⟩)], [(c!"t", exOne c!"moved")]⟩ ∧ ∀ nt ∈ ts, NoIds nt.2.root :=
  ⟨_, made_of_trace ⟨[], [], ⟨⟨c!"moved", .out⟩, .int 1⟩⟩ c!"t" _ _ (by rfl)⟩

theorem exOne_uses {chan : Str} {c : Channel} (h : UsesChannel (exOne chan) c) : c = ⟨chan, .out⟩ := by
  obtain ⟨s, hs, x, hx, rfl⟩ := h
  rcases List.mem_cons.1 hs with rfl | hs
  · rw [List.mem_singleton.1 hx]
  · rw [List.mem_singleton.1 hs] at hx; cases hx

/-- … and it holds, for example, of this trace. -/
example (U : Unicode) (hU : U.AsciiOK) (v : Variant) : ∃ ts r m, MadeFrom ts r ∧ (∀ nt ∈ ts, NoIds nt.2.root) ∧ (c!"t", m) ∈ r.tests ∧
    (Templates.classMembers U v m ++ Templates.inherited).Nodup := by
  obtain ⟨ts, h1, h2⟩ := exOne_made
  refine ⟨ts, _, exOne c!"moved", h1, h2, List.mem_singleton.2 rfl, ?_⟩
  rw [C75_members_partial _ _ h1 h2 U hU v c!"t" _ (List.mem_singleton.2 rfl)]
  refine ⟨fun c c' h1 h2 _ _ _ => (exOne_uses h1).trans (exOne_uses h2).symm, ?_, ?_, ?_,
    fun _ c c' h1 h2 _ _ _ => (exOne_uses h1).trans (exOne_uses h2).symm⟩
  · rintro ⟨c, h1, _, h2⟩; rw [exOne_uses h1] at h2; revert h2; decide
  · rintro ⟨_, c, h1, _, h2⟩; rw [exOne_uses h1] at h2; revert h2; decide
  · rintro ⟨_, c, h1, _, h2⟩; rw [exOne_uses h1] at h2; revert h2; decide

/-! ### C76 -/

/-- C76: the members of class Verdict have pairwise different names, other than the class's own, exactly when no test is called Verdict
or dump, and no test's name is another's with an underscore added. -/
theorem C76_verdict_members_partial (ts : GoMap Str Validate.Test) (r : StmSuite) (h : MadeFrom ts r) (name : Str) (m : Stm)
    (hm : (name, m) ∈ r.tests) :
    (Templates.verdictMembers m).Nodup ↔
      c!"Verdict" ∉ GoSet.values m.tests ∧ c!"dump" ∉ GoSet.values m.tests ∧
      ∀ t ∈ GoSet.values m.tests, t ++ c!"_" ∉ GoSet.values m.tests := by
  obtain ⟨t, ht, ok⟩ := madeFrom_machine h hm
  unfold Templates.verdictMembers
  have hnd := ok.tests
  generalize GoSet.values m.tests = l at hnd ⊢
  have hmap : (l.map (· ++ c!"_")).Nodup := hnd.map (fun a b e => List.append_cancel_right e)
  have hlast : ∀ (x : Str) (y : Str) (c : Char), c ≠ '_' → x ++ c!"_" ≠ y ++ [c] := by
    intro x y c hc e
    have := congrArg List.getLast? e
    simp at this
    exact hc this.symm
  have h1 : c!"Verdict" ∉ l.map (· ++ c!"_") := by
    intro hx
    obtain ⟨x, _, e⟩ := List.mem_map.1 hx
    exact hlast x c!"Verdic" 't' (by decide) e
  have h2 : c!"dump" ∉ l.map (· ++ c!"_") := by
    intro hx
    obtain ⟨x, _, e⟩ := List.mem_map.1 hx
    exact hlast x c!"dum" 'p' (by decide) e
  simp only [List.cons_append, List.nil_append, List.nodup_cons, List.mem_cons, List.mem_append, h1, h2, or_false, List.nodup_append, hnd, hmap,
    true_and, not_or]
  constructor
  · rintro ⟨⟨_, a⟩, b, c⟩
    exact ⟨a, b, fun t ht ht' => c _ ht' _ (List.mem_map.2 ⟨t, ht, rfl⟩) rfl⟩
  · rintro ⟨a, b, c⟩
    refine ⟨⟨by decide, a⟩, b, ?_⟩
    rintro x hx y hy rfl
    obtain ⟨t, ht, rfl⟩ := List.mem_map.1 hy
    exact c t ht hx

/-- A trace called dump makes a program that does not compile. -/
theorem C76_false : ∃ ts r m, MadeFrom ts r ∧ (c!"dump", m) ∈ r.tests ∧ ¬ (Templates.verdictMembers m).Nodup := by
  obtain ⟨h1, h2⟩ := made_of_trace ⟨c!"dump", [], ⟨⟨c!"moved", .out⟩, .int 1⟩⟩ c!"dump" _ _ (by rfl)
  refine ⟨_, _, _, h1, List.mem_singleton.2 rfl, ?_⟩
  decide

example : ∃ ts r m, MadeFrom ts r ∧ (c!"t", m) ∈ r.tests ∧ (Templates.verdictMembers m).Nodup := by
  obtain ⟨ts, h1, _⟩ := exOne_made
  exact ⟨ts, _, exOne c!"moved", h1, List.mem_singleton.2 rfl, by decide⟩

/-! ### C77 -/

namespace Templates

theorem upcase_head {U : Unicode} (hU : U.AsciiOK) {n : Str} (hn : Ascii n) :
    Strmanip.upcaseFirst U n = [] ∨ ∃ a t, Strmanip.upcaseFirst U n = a :: t ∧ a ≠ 'f' ∧ a ≠ 't' := by
  cases n with
  | nil => left; exact (C44_upcaseFirst U).1
  | cons c cs =>
    right
    refine ⟨U.toUpper c, cs, (C44_upcaseFirst U).2 c cs, ?_⟩
    have hc := hn c (by simp)
    rw [hU.toUpper c hc]
    split
    · rename_i h
      have key : ∀ x : Fin 26, Char.ofNat (x.val + 65) ≠ 'f' ∧ Char.ofNat (x.val + 65) ≠ 't' := by decide
      have := key ⟨c.toNat - 97, by omega⟩
      have e : c.toNat - 97 + 65 = c.toNat - 32 := by omega
      simp only [e] at this
      exact this
    · rename_i h
      constructor
      · rintro rfl; exact h (by decide)
      · rintro rfl; exact h (by decide)

end Templates

/-- C77: everything convert.h defines has its own name exactly when no two typed channels differ only in the case of their first
letters. -/
theorem C77_convert_names_partial (U : Unicode) (hU : U.AsciiOK) (c : CppConfig.Config) (types : TypeMap) (hwf : GoMap.WF types)
    (hascii : ∀ n ∈ types.keys, Ascii n) :
    (Templates.convertNames U (c.process types)).Nodup ↔
      ∀ a b t, a :: t ∈ types.keys → b :: t ∈ types.keys → U.toUpper a = U.toUpper b → a = b := by
  obtain ⟨_, hw, hg, _⟩ := C48_process c types hwf
  have hkeys : ∀ n, n ∈ (c.process types).channelTypes.keys ↔ n ∈ types.keys := by
    intro n
    rw [← not_iff_not, ← GoMap.get?_eq_none_iff, ← GoMap.get?_eq_none_iff, hg]
    simp
  unfold Templates.convertNames
  have hnd : (c.process types).channelTypes.keys.Nodup := hw
  generalize (c.process types).channelTypes.keys = l at hkeys hnd
  have hA : ∀ n ∈ l, Strmanip.upcaseFirst U n = [] ∨ ∃ a t, Strmanip.upcaseFirst U n = a :: t ∧ a ≠ 'f' ∧ a ≠ 't' :=
    fun n hn => Templates.upcase_head hU (hascii n ((hkeys n).1 hn))
  -- injectivity
  have hinj : (∀ n ∈ l, ∀ n' ∈ l, Strmanip.upcaseFirst U n = Strmanip.upcaseFirst U n' → n = n') ↔
      ∀ a b t, a :: t ∈ types.keys → b :: t ∈ types.keys → U.toUpper a = U.toUpper b → a = b := by
    constructor
    · intro h a b t ha hb he
      have := h _ ((hkeys _).2 ha) _ ((hkeys _).2 hb) (by rw [(C44_upcaseFirst U).2, (C44_upcaseFirst U).2, he])
      exact (List.cons.inj this).1
    · intro h n hn n' hn' he
      cases n with
      | nil =>
        cases n' with
        | nil => rfl
        | cons b t => rw [(C44_upcaseFirst U).1, (C44_upcaseFirst U).2] at he; cases he
      | cons a t =>
        cases n' with
        | nil => rw [(C44_upcaseFirst U).1, (C44_upcaseFirst U).2] at he; cases he
        | cons b t' =>
          rw [(C44_upcaseFirst U).2, (C44_upcaseFirst U).2, List.cons.injEq] at he
          obtain ⟨he, rfl⟩ := he
          rw [h a b t ((hkeys _).1 hn) ((hkeys _).1 hn') he]
  have hmap : ∀ (g : Str → Str), (∀ x y, g x = g y → x = y) →
      ((l.map (fun n => g (Strmanip.upcaseFirst U n))).Nodup ↔ ∀ n ∈ l, ∀ n' ∈ l, Strmanip.upcaseFirst U n = Strmanip.upcaseFirst U n' → n = n') := by
    intro g hgi
    constructor
    · intro h n hn n' hn' e
      exact List.inj_on_of_nodup_map h hn hn' (by rw [e])
    · intro h
      exact hnd.map_on (fun n hn n' hn' e => h n hn n' hn' (hgi _ _ e))
  have m1 := hmap (· ++ c!"Val") (fun x y e => List.append_cancel_right e)
  have m2 := hmap (· ++ c!"Msg") (fun x y e => List.append_cancel_right e)
  have m3 := hmap (c!"from" ++ ·) (fun x y e => List.append_cancel_left e)
  have m4 := hmap (c!"to" ++ ·) (fun x y e => List.append_cancel_left e)
  have e1 : l.map (Cpp.channelValueType U) = l.map (fun n => Strmanip.upcaseFirst U n ++ c!"Val") := rfl
  have e2 : l.map (Cpp.channelMsgType U) = l.map (fun n => Strmanip.upcaseFirst U n ++ c!"Msg") := rfl
  have e3 : l.map (Cpp.convertFrom U) = l.map (fun n => c!"from" ++ Strmanip.upcaseFirst U n) := rfl
  have e4 : l.map (Cpp.convertTo U) = l.map (fun n => c!"to" ++ Strmanip.upcaseFirst U n) := rfl
  simp only [e1, e2, e3, e4, List.nodup_append, m1, m2, m3, m4]
  rw [hinj]
  have hval : ∀ n ∈ l, ∀ (y : Str) (d : Char) (x : Str), (d = 'f' ∨ d = 't') → (y = c!"Val" ∨ y = c!"Msg") →
      Strmanip.upcaseFirst U n ++ y ≠ d :: x := by
    intro n hn y d x hd hy e
    rcases hA n hn with h0 | ⟨a, t, h0, ha, hb⟩
    · rw [h0, List.nil_append] at e
      rcases hy with rfl | rfl <;> rcases hd with rfl | rfl <;> simp at e
    · rw [h0, List.cons_append, List.cons.injEq] at e
      rcases hd with rfl | rfl
      · exact ha e.1
      · exact hb e.1
  constructor
  · exact fun h => h.1.1.1
  · intro h
    refine ⟨⟨⟨h, h, ?_⟩, h, ?_⟩, h, ?_⟩
    · rintro x hx y hy rfl
      obtain ⟨n, _, rfl⟩ := List.mem_map.1 hx
      obtain ⟨n', _, e⟩ := List.mem_map.1 hy
      have := congrArg List.getLast? e
      simp at this
    · rintro x hx y hy rfl
      obtain ⟨n', _, rfl⟩ := List.mem_map.1 hy
      rcases List.mem_append.1 hx with hx | hx <;> obtain ⟨n, hn, e⟩ := List.mem_map.1 hx
      · exact hval n hn _ 'f' _ (.inl rfl) (.inl rfl) e
      · exact hval n hn _ 'f' _ (.inl rfl) (.inr rfl) e
    · rintro x hx y hy rfl
      obtain ⟨n', _, rfl⟩ := List.mem_map.1 hy
      rcases List.mem_append.1 hx with hx | hx
      · rcases List.mem_append.1 hx with hx | hx <;> obtain ⟨n, hn, e⟩ := List.mem_map.1 hx
        · exact hval n hn _ 't' _ (.inr rfl) (.inl rfl) e
        · exact hval n hn _ 't' _ (.inr rfl) (.inr rfl) e
      · obtain ⟨n, hn, e⟩ := List.mem_map.1 hx
        simp at e

/-- Channels called a and A clash. -/
theorem C77_false (U : Unicode) (hU : U.AsciiOK) (c : CppConfig.Config) : ∃ ts r, MadeFrom ts r ∧
    ¬ (Templates.convertNames U (c.process r.types)).Nodup := by
  obtain ⟨h1, h2⟩ := made_of_trace ⟨[], [⟨⟨c!"A", .out⟩, .int 1⟩], ⟨⟨c!"a", .out⟩, .int 1⟩⟩ c!"t" _ _ (by rfl)
  refine ⟨_, _, h1, ?_⟩
  rw [C77_convert_names_partial U hU c _ h1.2.2.2.1 (by unfold Ascii; decide)]
  intro h
  have := h 'a' 'A' [] (by decide) (by decide) (by rw [hU.toUpper _ (by decide), hU.toUpper _ (by decide)]; decide)
  revert this; decide

example (U : Unicode) (hU : U.AsciiOK) (c : CppConfig.Config) : ∃ ts r, MadeFrom ts r ∧ (Templates.convertNames U (c.process r.types)).Nodup := by
  obtain ⟨ts, h1, _⟩ := exOne_made
  refine ⟨ts, _, h1, ?_⟩
  rw [C77_convert_names_partial U hU c _ h1.2.2.2.1 (by unfold Ascii; decide)]
  intro a b t ha hb _
  simp only [GoMap.keys, List.map_cons, List.map_nil, List.mem_singleton, List.cons.injEq] at ha hb
  rw [ha.1, hb.1]

/-! ### C78 -/

namespace Templates

theorem mem_rosPub (U : Unicode) (m : Stm) (x : Str) : x ∈ (TransitionContext.make m).in_.map (fun a => publisherName U a.channel) →
    lastTwo x = ['b', 'u'] ∧ x.reverse.take 4 = c!"bup_" := by
  intro h
  obtain ⟨a, _, rfl⟩ := List.mem_map.1 h
  exact ⟨lastTwo_append _ 'u' 'b' c!"_p", by simp [publisherName]⟩

theorem mem_rosSub (U : Unicode) (m : Stm) (x : Str) : x ∈ (TransitionContext.make m).out.map (fun a => subscriberName U a.channel) →
    x.reverse.take 4 = c!"bus_" := by
  intro h
  obtain ⟨a, _, rfl⟩ := List.mem_map.1 h
  simp [subscriberName]

/-- The local variables of `main` whose names do not depend on channels. -/
def fixedLocals (fsi hi : Bool) : List Str :=
  [c!"argc", c!"argv", c!"nh"] ++ [c!"stm"] ++ (if hi then [c!"input_accepted_sub"] else []) ++ [c!"timeout_timer"] ++
    (if fsi then [c!"initial_delay_timer"] else []) ++ [c!"status"]

theorem fixedLocals_nodup (a b : Bool) : (fixedLocals a b).Nodup := by cases a <;> cases b <;> decide

theorem fixedLocals_last {a b : Bool} {x : Str} (h : x ∈ fixedLocals a b) :
    b = true ∧ x = c!"input_accepted_sub" ∨ x.reverse.take 4 ∉ [c!"bup_", c!"bus_"] := by
  cases a <;> cases b <;> revert x <;> decide

theorem locals_perm (U : Unicode) (m : Stm) : (rosLocals U m).Perm
    ((TransitionContext.make m).in_.map (fun a => publisherName U a.channel) ++
      ((TransitionContext.make m).out.map (fun a => subscriberName U a.channel) ++
        fixedLocals (TransitionContext.make m).firstStateHasIn (TransitionContext.make m).hasIn)) := by
  rw [List.perm_iff_count]
  intro a
  unfold rosLocals fixedLocals
  simp only [List.count_append]
  omega

end Templates

/-- C78, variables: the local variables of a ROS test's main function have different names exactly when the inputs have different topic
names, so have the outputs, and no output's is input_accepted (if the test sends inputs). -/
theorem C78_locals_partial (U : Unicode) (m : Stm) :
    (Templates.rosLocals U m).Nodup ↔
      DistinctBy (Strmanip.toLowerUnderscored U) m IsIn ∧ DistinctBy (Strmanip.toLowerUnderscored U) m IsOut ∧
      ¬ (SendsInput m ∧ ∃ c, UsesChannel m c ∧ IsOut c ∧ Strmanip.toLowerUnderscored U c.name = c!"input_accepted") := by
  rw [(Templates.locals_perm U m).nodup_iff, List.nodup_append, List.nodup_append]
  have e1 : ((TransitionContext.make m).in_.map (fun a => Templates.publisherName U a.channel)).Nodup ↔
      DistinctBy (Strmanip.toLowerUnderscored U) m IsIn := by
    refine (Templates.nodup_in m (fun n => Strmanip.toLowerUnderscored U n ++ c!"_pub")).trans ?_
    unfold DistinctBy; simp only [List.append_left_inj]
  have e2 : ((TransitionContext.make m).out.map (fun a => Templates.subscriberName U a.channel)).Nodup ↔
      DistinctBy (Strmanip.toLowerUnderscored U) m IsOut := by
    refine (Templates.nodup_out m (fun n => Strmanip.toLowerUnderscored U n ++ c!"_sub")).trans ?_
    unfold DistinctBy; simp only [List.append_left_inj]
  have hfix := Templates.fixedLocals_nodup (TransitionContext.make m).firstStateHasIn (TransitionContext.make m).hasIn
  have e3 : c!"input_accepted_sub" ∈ (TransitionContext.make m).out.map (fun a => Templates.subscriberName U a.channel) ↔
      ∃ c, UsesChannel m c ∧ IsOut c ∧ Strmanip.toLowerUnderscored U c.name = c!"input_accepted" := by
    have es : c!"input_accepted_sub" = c!"input_accepted" ++ c!"_sub" := rfl
    simp only [List.mem_map, Templates.subscriberName, Templates.topicName, es, List.append_left_inj]
    constructor
    · rintro ⟨a, ha, h⟩
      obtain ⟨h1, h2⟩ := (Templates.mem_out m a.channel).1 ⟨a, ha, rfl⟩
      exact ⟨_, h1, h2, h⟩
    · rintro ⟨c, h1, h2, h⟩
      obtain ⟨a, ha, rfl⟩ := (Templates.mem_out m c).2 ⟨h1, h2⟩
      exact ⟨a, ha, h⟩
  have hhas := Templates.hasIn_iff m
  rw [e1, e2]
  constructor
  · rintro ⟨d1, ⟨d2, _, d3⟩, _⟩
    refine ⟨d1, d2, ?_⟩
    rintro ⟨hs, hc⟩
    exact d3 _ (e3.2 hc) _ (by simp [Templates.fixedLocals, hhas.2 hs]) rfl
  · rintro ⟨d1, d2, d3⟩
    refine ⟨d1, ⟨d2, hfix, ?_⟩, ?_⟩
    · rintro x hx y hy rfl
      rcases Templates.fixedLocals_last hy with ⟨hb, rfl⟩ | h0
      · exact d3 ⟨hhas.1 hb, e3.1 hx⟩
      · rw [Templates.mem_rosSub U m x hx] at h0
        exact h0 (by decide)
    · rintro x hx y hy rfl
      have hp := (Templates.mem_rosPub U m x hx).2
      rcases List.mem_append.1 hy with hy | hy
      · rw [Templates.mem_rosSub U m x hy] at hp; revert hp; decide
      · rcases Templates.fixedLocals_last hy with ⟨hb, rfl⟩ | h0
        · revert hp; decide
        · rw [hp] at h0; exact h0 (by decide)

/-- C78, topics: a ROS test uses a different topic for each channel, and another for acknowledgements, exactly when all its channels have
different topic names and (if it sends inputs) none is input_accepted. -/
theorem C78_topics_partial (U : Unicode) (m : Stm) :
    (Templates.rosTopics U m).Nodup ↔
      DistinctBy (Strmanip.toLowerUnderscored U) m (fun _ => True) ∧
      ¬ (SendsInput m ∧ ∃ c, UsesChannel m c ∧ Strmanip.toLowerUnderscored U c.name = c!"input_accepted") := by
  have hperm : (Templates.rosTopics U m).Perm
      ((TransitionContext.make m).in_.map (fun a => Templates.topicName U a.channel) ++
        (TransitionContext.make m).out.map (fun a => Templates.topicName U a.channel) ++
        (if (TransitionContext.make m).hasIn then [c!"input_accepted"] else [])) := by
    rw [List.perm_iff_count]
    intro a
    unfold Templates.rosTopics
    simp only [List.count_append]
    omega
  rw [hperm.nodup_iff, List.nodup_append]
  have hall : ((TransitionContext.make m).in_.map (fun a => Templates.topicName U a.channel) ++
        (TransitionContext.make m).out.map (fun a => Templates.topicName U a.channel)).Perm
      (m.aggregates.map (fun a => Templates.topicName U a.channel)) := by
    rw [← List.map_append, (C39_partition m).2.2.1, (C39_partition m).2.2.2]
    apply List.Perm.map
    have := List.filter_append_perm (fun a : AggregateSet => decide (a.channel.kind = kIn)) m.aggregates
    simpa [decide_not] using this
  have hmem : ∀ x, x ∈ (TransitionContext.make m).in_.map (fun a => Templates.topicName U a.channel) ++
        (TransitionContext.make m).out.map (fun a => Templates.topicName U a.channel) ↔
      ∃ c, UsesChannel m c ∧ Strmanip.toLowerUnderscored U c.name = x := by
    intro x
    rw [hall.mem_iff]
    simp only [List.mem_map, Templates.topicName]
    constructor
    · rintro ⟨a, ha, rfl⟩; exact ⟨_, (Templates.mem_aggregates m _).1 ⟨a, ha, rfl⟩, rfl⟩
    · rintro ⟨c, hc, rfl⟩
      obtain ⟨a, ha, rfl⟩ := (Templates.mem_aggregates m c).2 hc
      exact ⟨a, ha, rfl⟩
  rw [hall.nodup_iff]
  have e1 : (m.aggregates.map (fun a => Templates.topicName U a.channel)).Nodup ↔
      DistinctBy (Strmanip.toLowerUnderscored U) m (fun _ => True) := by
    refine (Templates.nodup_by (g := fun a : AggregateSet => a.channel) (Templates.nodup_channels m)
      (fun c => Strmanip.toLowerUnderscored U c.name)).trans ?_
    constructor
    · intro h c c' h1 h2 _ _ hf
      obtain ⟨a, ha, rfl⟩ := (Templates.mem_aggregates m c).2 h1
      obtain ⟨a', ha', rfl⟩ := (Templates.mem_aggregates m c').2 h2
      exact h a ha a' ha' hf
    · intro h a ha a' ha' hf
      exact h _ _ ((Templates.mem_aggregates m _).1 ⟨a, ha, rfl⟩) ((Templates.mem_aggregates m _).1 ⟨a', ha', rfl⟩) trivial trivial hf
  rw [e1]
  have hhas := Templates.hasIn_iff m
  cases hb : (TransitionContext.make m).hasIn with
  | false =>
    have hns : ¬ SendsInput m := by rw [← hhas, hb]; simp
    simp [hns]
  | true =>
    have hs : SendsInput m := hhas.1 hb
    simp only [if_true, List.nodup_cons, List.not_mem_nil, not_false_eq_true, List.nodup_nil, and_self, true_and, List.mem_singleton, hs]
    refine and_congr_right fun _ => ?_
    constructor
    · intro h hc; exact h _ ((hmem _).2 hc) _ rfl rfl
    · rintro h x hx _ rfl rfl; exact h ((hmem _).1 hx)

/-- Channels called camelCase and camel_case share a ROS topic and a variable name. -/
theorem C78_false (U : Unicode) (hU : U.AsciiOK) : ∃ ts r m, MadeFrom ts r ∧ (c!"t", m) ∈ r.tests ∧
    ¬ (Templates.rosTopics U m).Nodup ∧ ¬ (Templates.rosLocals U m).Nodup := by
  obtain ⟨h1, h2⟩ := made_of_trace ⟨[], [⟨⟨c!"aB", .out⟩, .int 1⟩], ⟨⟨c!"a_b", .out⟩, .int 1⟩⟩ c!"t" _ _ (by rfl)
  have hlow : Strmanip.toLowerUnderscored U c!"aB" = Strmanip.toLowerUnderscored U c!"a_b" := by
    simp [Strmanip.toLowerUnderscored, Strmanip.Formatter.step, Strmanip.Formatter.addChar, Strmanip.Formatter.markSplit,
      hU.isUpper, hU.isLower, hU.toLower]
  refine ⟨_, _, _, h1, List.mem_singleton.2 rfl, ?_, ?_⟩
  · rw [C78_topics_partial]
    rintro ⟨h, _⟩
    have := h ⟨c!"aB", .out⟩ ⟨c!"a_b", .out⟩ ⟨_, List.mem_cons_self .., _, List.mem_singleton.2 rfl, rfl⟩
      ⟨_, List.mem_cons_of_mem _ (List.mem_cons_self ..), _, List.mem_singleton.2 rfl, rfl⟩ trivial trivial hlow
    revert this; decide
  · rw [C78_locals_partial]
    rintro ⟨_, h, _⟩
    have := h ⟨c!"aB", .out⟩ ⟨c!"a_b", .out⟩ ⟨_, List.mem_cons_self .., _, List.mem_singleton.2 rfl, rfl⟩
      ⟨_, List.mem_cons_of_mem _ (List.mem_cons_self ..), _, List.mem_singleton.2 rfl, rfl⟩ (by unfold IsOut; decide)
      (by unfold IsOut; decide) hlow
    revert this; decide

example (U : Unicode) : (Templates.rosLocals U (exOne c!"moved")).Nodup ∧ (Templates.rosTopics U (exOne c!"moved")).Nodup := by
  rw [C78_topics_partial, C78_locals_partial]
  have hns : ¬ SendsInput (exOne c!"moved") := by
    rintro ⟨c, h1, h2⟩; rw [exOne_uses h1] at h2; revert h2; unfold IsIn; decide
  exact ⟨⟨fun c c' h1 h2 _ _ _ => (exOne_uses h1).trans (exOne_uses h2).symm, fun c c' h1 h2 _ _ _ => (exOne_uses h1).trans (exOne_uses h2).symm,
    fun h => hns h.1⟩, fun c c' h1 h2 _ _ _ => (exOne_uses h1).trans (exOne_uses h2).symm, fun h => hns h.1⟩

/-! ### C79 -/

namespace Templates

theorem type_int (i : Int64) : (Value.int i).type = if 0 ≤ i.toInt then RsType.arithmos .nat else RsType.arithmos .int := rfl

theorem type_enum (e : Str) : (Value.enum e).type = RsType.enum := rfl

theorem value_type_cases (v : Value) : v.type = RsType.empty ∧ v = .none ∨
    (∃ i, v = .int i ∧ (v.type = RsType.arithmos .nat ∧ 0 ≤ i.toInt ∨ v.type = RsType.arithmos .int ∧ i.toInt < 0)) ∨
    v.type = RsType.enum ∧ ∃ s, v = .enum s := by
  cases v with
  | none => exact .inl ⟨rfl, rfl⟩
  | int i =>
    right; left
    refine ⟨i, rfl, ?_⟩
    rw [type_int]
    by_cases h : 0 ≤ i.toInt
    · left; rw [if_pos h]; exact ⟨rfl, h⟩
    · right; rw [if_neg h]; exact ⟨rfl, by omega⟩
  | enum s => exact .inr (.inr ⟨rfl, s, rfl⟩)

theorem carries_types {ts : GoMap Str Validate.Test} {name : Str} {ty : RsType} (h : SuiteCarries ts name ty) :
    ty = RsType.empty ∨ ty = RsType.arithmos .nat ∨ (ty = RsType.arithmos .int ∧ CarriesNegative ts name) ∨ ty = RsType.enum := by
  obtain ⟨nt, hnt, p, n, e, hn, ho, he, hc, rfl⟩ := h
  rcases value_type_cases e.value with ⟨h, _⟩ | ⟨i, hv, ⟨h, _⟩ | ⟨h, hi⟩⟩ | ⟨h, _⟩
  · exact .inl h
  · exact .inr (.inl h)
  · exact .inr (.inr (.inl ⟨h, nt, hnt, p, n, e, i, hn, ho, he, hc, hv, hi⟩))
  · exact .inr (.inr (.inr h))

/-- The type of a channel with an integer value. -/
theorem int_channel {ts : GoMap Str Validate.Test} {name : Str} {ty t0 : RsType} (hl : LeastUpper (SuiteCarries ts name) ty)
    (h0 : SuiteCarries ts name t0) (hk : t0 = RsType.arithmos .nat ∨ t0 = RsType.arithmos .int) :
    (CarriesNegative ts name → ty = RsType.arithmos .int) ∧ (¬ CarriesNegative ts name → ty = RsType.arithmos .nat) := by
  have hkind : ∀ x, SuiteCarries ts name x → x.kind = ⟨1⟩ := by
    intro x hx
    have hty : ty.kind = ⟨1⟩ := by
      rcases hl.1 _ h0 with e | ⟨_, e, _⟩
      · rw [← e]; rcases hk with rfl | rfl <;> rfl
      · exact e
    rcases hl.1 _ hx with e | ⟨e, _, _⟩
    · rw [e]; exact hty
    · exact e
  have hcases : ∀ x, SuiteCarries ts name x → x = RsType.arithmos .nat ∨ (x = RsType.arithmos .int ∧ CarriesNegative ts name) := by
    intro x hx
    have := hkind x hx
    rcases carries_types hx with rfl | h | h | rfl
    · exact absurd this (by decide)
    · exact .inl h
    · exact .inr h
    · exact absurd this (by decide)
  have low : SubType (RsType.arithmos .nat) ty := by
    rcases hk with rfl | rfl
    · exact hl.1 _ h0
    · have := hl.1 _ h0
      right
      rcases this with e | ⟨_, e, h⟩
      · rw [← e]; decide
      · refine ⟨rfl, e, Nat.le_trans (by decide) h⟩
  have anti : ∀ d : Domain, SubType (RsType.arithmos d) ty → SubType ty (RsType.arithmos d) → ty = RsType.arithmos d := by
    intro d h1 h2
    rcases h1 with e | ⟨_, hk', h1⟩
    · exact e.symm
    · rcases h2 with e | ⟨_, _, h2⟩
      · exact e
      · cases ty with
        | mk k d' =>
          simp only at hk'
          subst hk'
          simp only [RsType.arithmos] at h1 h2
          have : d' = d := by
            cases d' with | mk a => cases d with | mk b =>
              simp only at h1 h2
              congr 1
              exact UInt8.le_antisymm h2 h1
          rw [this]; rfl
  constructor
  · intro hneg
    obtain ⟨nt, hnt, p, n, e, i, hn, ho, he, hc, hv, hi⟩ := hneg
    have hint : SuiteCarries ts name (RsType.arithmos .int) := by
      refine ⟨nt, hnt, p, n, e, hn, ho, he, hc, ?_⟩
      rw [hv, type_int, if_neg (by omega)]
    refine anti .int (hl.1 _ hint) (hl.2 _ ?_)
    intro x hx
    rcases hcases x hx with rfl | ⟨rfl, _⟩
    · right; decide
    · left; rfl
  · intro hneg
    refine anti .nat low (hl.2 _ ?_)
    intro x hx
    rcases hcases x hx with rfl | ⟨_, h⟩
    · left; rfl
    · exact absurd h hneg

end Templates

/-- C79: the C++ type of a channel: enumerations are strings; integers are unsigned exactly when no test of the suite has a negative
value on the channel.  A value fits its type exactly when it is present and in that type's 32-bit range. -/
theorem C79_values_partial (ts : GoMap Str Validate.Test) (r : StmSuite) (h : MadeFrom ts r) (name : Str) (m : Stm)
    (hm : (name, m) ∈ r.tests) (s : State) (hs : s ∈ m.states) (x : TSet) (hx : x ∈ s.transitionSets) (tr : Transition)
    (htr : tr ∈ x.transitions) : ∃ ty, GoMap.get? r.types x.channel.name = some (some ty) ∧
      (∀ e, tr.value = .enum e → Cpp.stdType ty = "std::string".toList) ∧
      (∀ i, tr.value = .int i → CarriesNegative ts x.channel.name → Cpp.stdType ty = "int".toList) ∧
      (∀ i, tr.value = .int i → ¬ CarriesNegative ts x.channel.name → Cpp.stdType ty = "unsigned int".toList ∧ 0 ≤ i.toInt) ∧
      (Holds (Cpp.stdType ty) tr.value ↔ tr.value ≠ .none ∧ ∀ i, tr.value = .int i →
        (CarriesNegative ts x.channel.name → -2 ^ 31 ≤ i.toInt ∧ i.toInt < 2 ^ 31) ∧
        (¬ CarriesNegative ts x.channel.name → i.toInt < 2 ^ 32)) := by
  obtain ⟨t, ht, ok⟩ := madeFrom_machine h hm
  obtain ⟨ty, hty, hc, hl⟩ := ok.typed s hs x hx tr htr
  refine ⟨ty, hty, ?_⟩
  have hnn : ∀ i : Int64, tr.value = .int i → ¬ CarriesNegative ts x.channel.name → 0 ≤ i.toInt := by
    intro i hi hno
    by_contra hlt
    have h1 := (Templates.int_channel hl hc (by
      rw [hi, Templates.type_int, if_neg hlt]; exact .inr rfl)).2 hno
    have h2 := hl.1 _ hc
    rw [h1, hi] at h2
    rw [Templates.type_int, if_neg hlt] at h2
    rcases h2 with h2 | ⟨_, _, h2⟩
    · revert h2; decide
    · revert h2; decide
  have hI : ∀ i, tr.value = .int i → (CarriesNegative ts x.channel.name → Cpp.stdType ty = "int".toList) ∧
      (¬ CarriesNegative ts x.channel.name → Cpp.stdType ty = "unsigned int".toList) := by
    intro i hi
    have hk : tr.value.type = RsType.arithmos .nat ∨ tr.value.type = RsType.arithmos .int := by
      rw [hi, Templates.type_int]
      split
      · exact .inl rfl
      · exact .inr rfl
    obtain ⟨h1, h2⟩ := Templates.int_channel hl hc hk
    exact ⟨fun hn => by rw [h1 hn]; decide, fun hn => by rw [h2 hn]; decide⟩
  have hE : ∀ e, tr.value = .enum e → Cpp.stdType ty = "std::string".toList := by
    intro e he
    have h2 := hl.1 _ hc
    rw [he, Templates.type_enum] at h2
    rcases h2 with h2 | ⟨h2, _⟩
    · rw [← h2]; decide
    · exact absurd h2 (by decide)
  refine ⟨hE, fun i hi => (hI i hi).1, fun i hi hn => ⟨(hI i hi).2 hn, hnn i hi hn⟩, ?_⟩
  cases hv : tr.value with
  | none => simp [Holds]
  | enum e => simp [Holds, hE e hv]
  | int i =>
    obtain ⟨h1, h2⟩ := hI i hv
    by_cases hn : CarriesNegative ts x.channel.name
    · simp [Holds, h1 hn, hn]
    · have := hnn i hv hn
      simp [Holds, h2 hn, hn, this]

/-- C79, for any type that can stand in a suite file: the C++ type it is given, by the type's name there. -/
theorem C79_named (t : RsType) (name : Str) (h : t.marshalText = .ok name) :
    (name, Cpp.stdType t) ∈ [("enum".toList, "std::string".toList), ("nat".toList, "unsigned int".toList), ("int".toList, "int".toList),
      ("real".toList, "double".toList), ("()".toList, "void *".toList)] := by
  obtain ⟨⟨k⟩, ⟨d⟩⟩ := t
  rcases (C10_type_print _ _).1 h with ⟨hk, rfl⟩ | ⟨hk, rfl⟩ | ⟨hk, ⟨hd, rfl⟩ | ⟨hd, rfl⟩ | ⟨hd, rfl⟩⟩
  · simp only at hk; cases hk
    simp [Cpp.stdType, RsType.isEnum, RsType.isNat, RsType.isInt, RsType.isReal, RsType.isArithmos, RsKind.enum, RsKind.arithmos]
  · simp only at hk; cases hk
    simp [Cpp.stdType, RsType.isEnum, RsKind.enum]
  · simp only at hk hd; cases hk; cases hd; decide
  · simp only at hk hd; cases hk; cases hd; decide
  · simp only at hk hd; cases hk; cases hd; decide

example : (RsType.arithmos .real).marshalText = .ok c!"real" := by decide

/-- The unconditional claim is false: 2^40 is a value of a test, and its channel is an unsigned int. -/
theorem C79_false : ∃ ts r m s x tr ty, MadeFrom ts r ∧ (c!"t", m) ∈ r.tests ∧ s ∈ m.states ∧ x ∈ s.transitionSets ∧ tr ∈ x.transitions ∧
    GoMap.get? r.types x.channel.name = some (some ty) ∧ ¬ Holds (Cpp.stdType ty) tr.value := by
  obtain ⟨h1, h2⟩ := made_of_trace ⟨[], [], ⟨⟨c!"a", .out⟩, .int 1099511627776⟩⟩ c!"t" _ _ (by rfl)
  refine ⟨_, _, _, _, _, _, _, h1, List.mem_singleton.2 rfl, List.mem_cons_self .., List.mem_singleton.2 rfl, List.mem_singleton.2 rfl, rfl, ?_⟩
  unfold Holds
  decide

example : ∃ ts r m s x tr, MadeFrom ts r ∧ (c!"t", m) ∈ r.tests ∧ s ∈ m.states ∧ x ∈ s.transitionSets ∧ tr ∈ x.transitions := by
  obtain ⟨ts, h1, _⟩ := exOne_made
  exact ⟨ts, _, exOne c!"moved", _, _, _, h1, List.mem_singleton.2 rfl, List.mem_cons_self .., List.mem_singleton.2 rfl, List.mem_singleton.2 rfl⟩

/-! ### C80 -/

/-- Characters that cannot stand for themselves in a C++ string literal. -/
def Spec.Plainly (s : Str) : Prop := '"' ∉ s ∧ '\\' ∉ s ∧ '\n' ∉ s

namespace Templates

theorem stringBody_length {esc : Str → Char → Str → Prop} (hesc : ∀ r c r', esc r c r' → r'.length < r.length) {t s : Str}
    (h : StringBody esc t s) : s.length + 1 ≤ t.length ∧ ('\\' ∈ t → s.length + 1 < t.length) := by
  induction h with
  | close => simp
  | char c r s h1 h2 h3 _ ih =>
    refine ⟨by simp; omega, fun hm => ?_⟩
    rcases List.mem_cons.1 hm with e | hm
    · exact absurd e.symm h2
    · have := ih.2 hm; simp; omega
  | escape r c r' s he _ ih =>
    have := hesc _ _ _ he
    simp only [List.length_cons]
    omega

theorem stringBody_self {esc : Str → Char → Str → Prop} (hesc : ∀ r c r', esc r c r' → r'.length < r.length) (s : Str) :
    StringBody esc (s ++ c!"\"") s ↔ Plainly s := by
  constructor
  · intro h
    have hb : '\\' ∉ s := by
      intro hm
      have := (stringBody_length hesc h).2 (by simp [hm])
      simp at this
    induction s with
    | nil => exact ⟨by simp, by simp, by simp⟩
    | cons c s ih =>
      simp only [List.mem_cons, not_or] at hb
      rw [List.cons_append] at h
      generalize ht : c :: (s ++ c!"\"") = t at h
      generalize hs : c :: s = s' at h
      cases h with
      | close => cases hs
      | char c' r s'' h1 h2 h3 h4 =>
        cases ht; cases hs
        obtain ⟨a1, a2, a3⟩ := ih h4 hb.2
        refine ⟨?_, ?_, ?_⟩
        · simp only [List.mem_cons, not_or]; exact ⟨fun e => h1 e.symm, a1⟩
        · simp only [List.mem_cons, not_or]; exact ⟨fun e => h2 e.symm, a2⟩
        · simp only [List.mem_cons, not_or]; exact ⟨fun e => h3 e.symm, a3⟩
      | escape r c' r' s'' he h4 =>
        cases ht
        exact absurd rfl hb.1
  · intro h
    induction s with
    | nil => exact .close
    | cons c s ih =>
      obtain ⟨h1, h2, h3⟩ := h
      simp only [List.mem_cons, not_or] at h1 h2 h3
      exact .char c _ _ (fun e => h1.1 e.symm) (fun e => h2.1 e.symm) (fun e => h3.1 e.symm) (ih ⟨h1.2, h2.2, h3.2⟩)

end Templates

/-- C80: the literal written for a value stands for that value exactly when the value is present, is not the least 64-bit integer, and
has no quote, backslash or line break (whatever escape sequences there are, as long as each is longer than the character it stands for). -/
theorem C80_literal_partial (esc : Str → Char → Str → Prop) (hesc : ∀ r c r', esc r c r' → r'.length < r.length) (v : Value) :
    CppLiteral esc (Cpp.value v) v ↔
      v ≠ .none ∧ (∀ i, v = .int i → i.toInt ≠ -2 ^ 63) ∧ (∀ s, v = .enum s → Plainly s) := by
  cases v with
  | none => simp [CppLiteral]
  | enum s =>
    have e : Cpp.value (.enum s) = '"' :: (s ++ c!"\"") := by
      unfold Cpp.value; rw [Templates.type_enum, if_pos (by decide)]; rfl
    rw [e]
    unfold CppLiteral
    constructor
    · rintro ⟨b, hb, h⟩
      cases hb
      refine ⟨by simp, by simp, ?_⟩
      rintro s' e'
      cases e'
      exact (Templates.stringBody_self hesc s).1 h
    · rintro ⟨_, _, h⟩
      exact ⟨_, rfl, (Templates.stringBody_self hesc s).2 (h s rfl)⟩
  | int i =>
    have e : Cpp.value (.int i) = formatInt i := by
      unfold Cpp.value
      rw [if_neg]
      · rfl
      · rw [Templates.type_int]; split <;> decide
    rw [e]
    unfold CppLiteral
    obtain ⟨⟨sign, ds, hs, hne, hds, hval⟩, hplus, hminus, hz1, hz2⟩ := canonicalInt_formatInt i
    have hlo := Int64.le_toInt i
    have hhi := Int64.toInt_lt i
    have hdz : ∀ r, ds = '0' :: r → r = [] := by
      intro r hr
      rcases hval with ⟨rfl, _⟩ | ⟨rfl, _⟩ | ⟨rfl, _⟩
      · exact hz1 r (by rw [hs, hr]; rfl)
      · rw [hs] at hplus; simp at hplus
      · exact absurd (by rw [hs, hr]; rfl) (hz2 r)
    constructor
    · rintro ⟨ds', hne', hds', _, hlt, h⟩
      refine ⟨by simp, ?_, by simp⟩
      rintro i' e'
      cases e'
      rcases h with ⟨_, h⟩ | ⟨_, h⟩ <;> omega
    · rintro ⟨_, hmin, _⟩
      have hmin := hmin i rfl
      rcases hval with ⟨rfl, hv⟩ | ⟨rfl, _⟩ | ⟨rfl, hv⟩
      · exact ⟨ds, hne, hds, hdz, by omega, .inl ⟨hs, hv⟩⟩
      · rw [hs] at hplus; simp at hplus
      · exact ⟨ds, hne, hds, hdz, by omega, .inr ⟨hs, hv⟩⟩

/-- The unconditional claim is false: an enumeration value may have a quote in it, read from a traces file. -/
theorem C80_false (esc : Str → Char → Str → Prop) (hesc : ∀ r c r', esc r c r' → r'.length < r.length) :
    ∃ v, (∃ t, Value.unmarshalText t = .ok v) ∧ ¬ CppLiteral esc (Cpp.value v) v := by
  refine ⟨.enum c!"a\"b", ⟨c!"a\"b", by decide⟩, ?_⟩
  rw [C80_literal_partial esc hesc]
  rintro ⟨_, _, h⟩
  exact (h _ rfl).1 (by decide)

example (esc : Str → Char → Str → Prop) (hesc : ∀ r c r', esc r c r' → r'.length < r.length) :
    CppLiteral esc (Cpp.value (.enum c!"stop")) (.enum c!"stop") ∧ CppLiteral esc (Cpp.value (.int (-7))) (.int (-7)) := by
  rw [C80_literal_partial esc hesc, C80_literal_partial esc hesc]
  refine ⟨⟨by simp, by simp, ?_⟩, by simp, ?_, by simp⟩
  · rintro s e; cases e; exact ⟨by decide, by decide, by decide⟩
  · rintro i e; cases e; decide

end Rtcg
