import Verif.Props.CppTrace
import Verif.Props.Trace

/-
C121: the programs of a trace depend on the trace, its name and the types of its channels only; so traces may be added to a
traces file without touching the programs of those that were there.
-/

namespace Rtcg

open Spec Spec.Cpp Program Programs Harness

/-- Both file systems hold the same text at a place. -/
def Spec.SameText (T : TextLayer) (fs₁ fs₂ : Fs) (a : Loc) : Prop := ∃ text, HasText T fs₁ a text ∧ HasText T fs₂ a text

/-- The values that the traces send on a channel have the same least type. -/
def Spec.SameType (traces₁ traces₂ : List Forbidden) (chan : Str) : Prop :=
  ∃ ty, LeastUpper (fun ty => ∃ f ∈ traces₁, TraceCarries f chan ty) ty ∧ LeastUpper (fun ty => ∃ f ∈ traces₂, TraceCarries f chan ty) ty

namespace Steady

theorem make_congr {m m' : Stm} (h : m.states = m'.states) : TransitionContext.make m = TransitionContext.make m' := by
  obtain ⟨a, b, c⟩ := m
  obtain ⟨a', b', c'⟩ := m'
  cases h
  rfl

theorem animateBody_congr (U : Unicode) (tc : TransitionContext) {ctx ctx' : CppConfig.Context}
    (h : ∀ a ∈ tc.out, CppText.typeWord ctx a.channel.name = CppText.typeWord ctx' a.channel.name ∧
      CppText.cppTypeOf ctx a.channel.name = CppText.cppTypeOf ctx' a.channel.name) :
    CppText.animateBody U tc ctx = CppText.animateBody U tc ctx' := by
  unfold CppText.animateBody
  rw [List.flatMap_congr (g := fun a : AggregateSet =>
      c!"\n    std::cout << \"  " ++ a.channel.name ++ c!" (type: " ++ CppText.typeWord ctx' a.channel.name ++ c!")\\n\";")
      (fun a ha => by rw [(h a ha).1]),
    List.flatMap_congr (f := fun a : AggregateSet =>
      c!"\n    else if (choice == \"" ++ a.channel.name ++ c!"\")\n    {\n      " ++ CppText.cppTypeOf ctx a.channel.name ++
      c!" in;\n      std::cin >> in;\n\n      stm." ++ Rtcg.Cpp.callbackName a.channel.name ++ c!"(" ++ Rtcg.Cpp.convertTo U a.channel.name ++
      c!"(in));\n    }")
      (g := fun a : AggregateSet =>
      c!"\n    else if (choice == \"" ++ a.channel.name ++ c!"\")\n    {\n      " ++ CppText.cppTypeOf ctx' a.channel.name ++
      c!" in;\n      std::cin >> in;\n\n      stm." ++ Rtcg.Cpp.callbackName a.channel.name ++ c!"(" ++ Rtcg.Cpp.convertTo U a.channel.name ++
      c!"(in));\n    }")
      (fun a ha => by rw [(h a ha).2])]

/-- The text of main.cpp is made of the states and tests of the machine, the includes and, for animations, the types of the channels of outputs. -/
theorem mainText_congr (U : Unicode) {v : Variant} (hv : v = .animate ∨ v = .ros) (date name : Str) {m m' : Stm} {ctx ctx' : CppConfig.Context}
    (hs : m.states = m'.states) (ht : GoSet.values m.tests = GoSet.values m'.tests) (hi : ctx.includes = ctx'.includes)
    (h : v = .animate → ∀ a ∈ (TransitionContext.make m).out, CppText.typeWord ctx a.channel.name = CppText.typeWord ctx' a.channel.name ∧
      CppText.cppTypeOf ctx a.channel.name = CppText.cppTypeOf ctx' a.channel.name) (first : Str) :
    CppText.mainText U v date name m (TransitionContext.make m) ctx first =
      CppText.mainText U v date name m' (TransitionContext.make m') ctx' first := by
  have hb : CppText.mainBody U v (TransitionContext.make m) ctx = CppText.mainBody U v (TransitionContext.make m) ctx' := by
    unfold CppText.mainBody
    rcases hv with rfl | rfl
    · rw [animateBody_congr U _ (h rfl)]
    · rfl
  rw [← make_congr hs]
  unfold CppText.mainText CppText.mainFunction CppText.includes CppText.stmClass CppText.stmBodies
  rw [hb, hi, ht, hs]

theorem types_congr {c : CppConfig.Config} {types₁ types₂ : TypeMap} (hw₁ : GoMap.WF types₁) (hw₂ : GoMap.WF types₂) {traces₁ traces₂ : List Forbidden}
    (h₁ : TypesAre types₁ (fun chan ty => ∃ f ∈ traces₁, TraceCarries f chan ty))
    (h₂ : TypesAre types₂ (fun chan ty => ∃ f ∈ traces₂, TraceCarries f chan ty)) {chan : Str} (h : SameType traces₁ traces₂ chan)
    {f : Forbidden} {ty : RsType} (hf : TraceCarries f chan ty) (hm₁ : f ∈ traces₁) (hm₂ : f ∈ traces₂) :
    (GoMap.get? (c.process types₁).channelTypes chan).bind (·.base) = (GoMap.get? (c.process types₂).channelTypes chan).bind (·.base) := by
  rw [(C48_process c types₁ hw₁).2.2.1, (C48_process c types₂ hw₂).2.2.1]
  obtain ⟨t, l₁, l₂⟩ := h
  have key : ∀ {types : TypeMap} {traces : List Forbidden}, TypesAre types (fun chan ty => ∃ f ∈ traces, TraceCarries f chan ty) → f ∈ traces →
      LeastUpper (fun ty => ∃ f ∈ traces, TraceCarries f chan ty) t → GoMap.get? types chan = some (some t) := by
    intro types traces hh hm hl
    cases hg : GoMap.get? types chan with
    | none => exact absurd ⟨ty, f, hm, hf⟩ ((hh chan).1.1 hg)
    | some x =>
      obtain ⟨t', rfl, hl'⟩ := (hh chan).2 x hg
      rw [LeastUpper.unique hl hl']
  rw [key h₁ hm₁ l₁, key h₂ hm₂ l₂]

/-- A generated output's file for a test: what it holds. -/
theorem gen_files {T : TextLayer} {env : Env} {output : Str} {argv : List Str} {config : Str} {suite : StmSuite} {fs' : Fs}
    (hg : GivenSuite T env argv config suite) (hn : PlainNames suite) (hok : Program.gen T env false output argv = (fs', .ok ())) :
    ∃ cfg, Program.loadConfig T env.cwd env.fs (cleanPath config) = .ok cfg ∧
      ((cfg.cpps.map (·.variant)).Nodup → ∀ c ∈ cfg.cpps, ∀ rc ∈ filesOf suite c,
        HasText T fs' (locate env.cwd output ++ c.variant.string :: rc.1) (T.text rc.2)) := by
  obtain ⟨fs, cfg, hm, hl, hr⟩ := gen_succeeded hg hok
  simp only [Gen.maybeClean, Bool.not_false, if_true, Prod.mk.injEq, and_true] at hm
  subst hm
  refine ⟨cfg, hl, fun hv c hc rc hrc => ?_⟩
  obtain ⟨j, input, text, _, _, _, hd⟩ := hg.json
  obtain ⟨hwt, hwf, _⟩ := Json.decodeStmSuite_maps hd
  have hcon := (C66_contents env.cwd env.fs fs' cfg (cleanPath output) suite hn hwf hwt hv (Templates.run_ok hr)).1 c hc rc hrc
  rw [locate_cleanPath] at hcon
  exact ⟨rc.2, hcon, rfl⟩

end Steady

section

variable {T : TextLayer} {env₁ env₂ : Env} {config₁ config₂ trace₁ trace₂ file₁ file₂ : Str} {traces₁ traces₂ : List Forbidden} {fs₁ fs₂ : Fs}

/-- C121: the script, run on two good traces files with the same configuration, on the same day, into output directories of the same name: for a trace
that both files have, under the same name, both outputs hold the same main.cpp — for animations, if the channels of its outputs have the same types
in both —, package.xml and CMakeLists.txt, whatever the other traces are. -/
theorem C121_per_trace (hU : T.unicode.AsciiOK) (hc₁ : config₁.head? ≠ some '-') (hc₂ : config₂.head? ≠ some '-')
    (hr₁ : Reads T env₁ trace₁ file₁) (hr₂ : Reads T env₂ trace₂ file₂)
    (h₁ : Forbidden.read file₁ = some (.ok traces₁)) (h₂ : Forbidden.read file₂ = some (.ok traces₂))
    (hev : ∀ f ∈ traces₁ ++ traces₂, ∀ e ∈ eventsOf f, e.channel.name ≠ [] ∧ e.value ≠ .none)
    (hty₁ : ¬ ∃ chan, Conflict (fun ty => ∃ f ∈ traces₁, TraceCarries f chan ty))
    (hty₂ : ¬ ∃ chan, Conflict (fun ty => ∃ f ∈ traces₂, TraceCarries f chan ty))
    (hpl : ∀ f ∈ traces₁ ++ traces₂, f.name = [] ∨ Spec.Plain f.name)
    (hcwd : env₁.cwd = env₂.cwd)
    (hcfg : loadConfig T env₁.cwd env₁.fs (cleanPath config₁) = loadConfig T env₂.cwd env₂.fs (cleanPath config₂))
    (hrun₁ : Program.script T env₁ [config₁, trace₁] = (fs₁, 0)) (hrun₂ : Program.script T env₂ [config₂, trace₂] = (fs₂, 0)) :
    ∃ cfg named₁ named₂, loadConfig T env₁.cwd env₁.fs (cleanPath config₁) = .ok cfg ∧
      Forbidden.nameAll traces₁ = some named₁ ∧ Forbidden.nameAll traces₂ = some named₂ ∧
      ((cfg.cpps.map (·.variant)).Nodup → ∀ name f, (name, f) ∈ named₁ → (name, f) ∈ named₂ → ∀ c ∈ cfg.cpps,
        let dir := locate env₁.cwd c!"out" ++ [c.variant.string, c!"src", name]
        ((c.variant = .animate → ∀ e ∈ eventsOf f, e.channel.kind ≠ kIn → SameType traces₁ traces₂ e.channel.name) →
          SameText T fs₁ fs₂ (dir ++ [c!"src", c!"main.cpp"])) ∧
        (c.catkin ≠ none → SameText T fs₁ fs₂ (dir ++ [c!"package.xml"]) ∧ SameText T fs₁ fs₂ (dir ++ [c!"CMakeLists.txt"]))) := by
  obtain ⟨cfg, named₁, vs₁, suite₁, a1, a2, a3, _, a5, _, a7⟩ := script_texts hU hc₁ hr₁ h₁ (fun f hf => hev f (by simp [hf])) hty₁
    (fun f hf => hpl f (by simp [hf])) hrun₁
  obtain ⟨cfg', named₂, vs₂, suite₂, b1, b2, b3, _, b5, _, b7⟩ := script_texts hU hc₂ hr₂ h₂ (fun f hf => hev f (by simp [hf])) hty₂
    (fun f hf => hpl f (by simp [hf])) hrun₂
  obtain rfl : cfg = cfg' := by rw [hcfg, b1] at a1; exact (Except.ok.inj a1).symm
  refine ⟨cfg, named₁, named₂, a1, a2, b2, fun hv name f hf₁ hf₂ c hcc => ⟨fun hst => ?_, fun hk => ?_⟩⟩
  · obtain ⟨hvar, m₁, _, _, p1, p2, _, ⟨_, _, p3⟩, _⟩ := a7 hv name f hf₁ c hcc
    obtain ⟨_, m₂, _, _, q1, q2, _, ⟨_, _, q3⟩, _⟩ := b7 hv name f hf₂ c hcc
    have hin : ∀ {named : GoMap Str Forbidden} {traces : List Forbidden}, Forbidden.nameAll traces = some named → (name, f) ∈ named → f ∈ traces := by
      intro named traces hn hm
      obtain ⟨names, hl, he, _⟩ := nameAll_spec traces
      rw [hn] at he
      cases he
      exact (List.of_mem_zip hm).2
    have hw₁ : GoMap.WF suite₁.types := a3.2.2.2.1
    have hw₂ : GoMap.WF suite₂.types := b3.2.2.2.1
    have heq := Steady.mainText_congr T.unicode hvar T.date name (m := m₁) (m' := m₂) (ctx := c.process suite₁.types)
      (ctx' := c.process suite₂.types) (by rw [p1, q1]) (by rw [p2, q2])
      (by rw [(C48_process c _ hw₁).1, (C48_process c _ hw₂).1])
      (fun hva a ha => by
        rw [(C39_partition m₁).2.2.2, List.mem_filter] at ha
        obtain ⟨ha, hka⟩ := ha
        have hch : a.channel ∈ m₁.aggregates.map (·.channel) := List.mem_map.2 ⟨a, ha, rfl⟩
        rw [(C38_aggregates m₁).1, mem_firstUses] at hch
        obtain ⟨s, hs, hx⟩ := List.mem_flatMap.1 hch
        obtain ⟨x, hx, hxa⟩ := List.mem_map.1 hx
        obtain ⟨e, he, h1, _⟩ := Trace.sets p1 hs hx
        rw [hxa] at h1
        have := Steady.types_congr (c := c) hw₁ hw₂ a5 b5 (hst hva e he (by rw [← h1]; simpa using hka)) (f := f) ⟨e, he, rfl, rfl⟩
          (hin a2 hf₁) (hin b2 hf₂)
        unfold CppText.typeWord CppText.cppTypeOf
        rw [h1, this]
        exact ⟨rfl, rfl⟩) (Harness.initial m₁)
    have hi : Harness.initial m₁ = Harness.initial m₂ := by unfold Harness.initial Stm.initialState; rw [p1, q1]
    refine ⟨CppText.mainText T.unicode c.variant T.date name m₁ (TransitionContext.make m₁) (c.process suite₁.types)
      (Harness.initial m₁), ?_, ?_⟩
    · simpa using p3
    · rw [heq, hi, hcwd]
      simpa using q3
  · obtain ⟨n₁, ts₁, s₁, stms₁, u1, _, _, _, u5, u6, u7, u8⟩ := script_gen hc₁ hr₁ h₁ (fun f hf => hev f (by simp [hf])) hty₁
      (fun f hf => hpl f (by simp [hf])) hrun₁
    obtain ⟨n₂, ts₂, s₂, stms₂, v1, _, _, _, v5, v6, v7, v8⟩ := script_gen hc₂ hr₂ h₂ (fun f hf => hev f (by simp [hf])) hty₂
      (fun f hf => hpl f (by simp [hf])) hrun₂
    rw [a2] at u1; cases u1
    rw [b2] at v1; cases v1
    obtain ⟨m₁, _, w1, _⟩ := u8 name f hf₁
    obtain ⟨m₂, _, w2, _⟩ := v8 name f hf₂
    obtain ⟨cfg₁, l1, f1⟩ := Steady.gen_files u6 u5 u7
    obtain ⟨cfg₂, l2, f2⟩ := Steady.gen_files v6 v5 v7
    obtain rfl : cfg = cfg₁ := by rw [a1] at l1; exact Except.ok.inj l1
    obtain rfl : cfg = cfg₂ := by rw [b1] at l2; exact Except.ok.inj l2
    obtain ⟨pkg, hp⟩ : ∃ pkg, c.catkin = some pkg := Option.ne_none_iff_exists'.1 hk
    have hfile : ∀ {suite : StmSuite} {m : Stm}, (name, m) ∈ suite.tests →
        ([c!"src", name, c!"package.xml"], Content.packageXml (Catkin.forTest pkg name)) ∈ filesOf suite c ∧
        ([c!"src", name, c!"CMakeLists.txt"], Content.cmake (Catkin.forTest pkg name)) ∈ filesOf suite c := by
      intro suite m hm
      simp only [filesOf, hp, List.mem_append, List.mem_flatMap]
      exact ⟨.inl (.inr ⟨_, hm, by simp⟩), .inl (.inr ⟨_, hm, by simp⟩)⟩
    constructor
    · refine ⟨T.text (.packageXml (Catkin.forTest pkg name)), ?_, ?_⟩
      · simpa using f1 hv c hcc _ (hfile w1).1
      · rw [hcwd]; simpa using f2 hv c hcc _ (hfile w2).1
    · refine ⟨T.text (.cmake (Catkin.forTest pkg name)), ?_, ?_⟩
      · simpa using f1 hv c hcc _ (hfile w1).2
      · rw [hcwd]; simpa using f2 hv c hcc _ (hfile w2).2

/-- C121: appending traces to a traces file changes nothing for the traces that were there: they keep their names, and their programs are as they
were — those of animations, if the new traces do not widen the types of the channels of the outputs. -/
theorem C121_appended {more : List Forbidden} (hU : T.unicode.AsciiOK) (hc₁ : config₁.head? ≠ some '-') (hc₂ : config₂.head? ≠ some '-')
    (hr₁ : Reads T env₁ trace₁ file₁) (hr₂ : Reads T env₂ trace₂ file₂)
    (h₁ : Forbidden.read file₁ = some (.ok traces₁)) (h₂ : Forbidden.read file₂ = some (.ok (traces₁ ++ more)))
    (hev : ∀ f ∈ traces₁ ++ more, ∀ e ∈ eventsOf f, e.channel.name ≠ [] ∧ e.value ≠ .none)
    (hty : ¬ ∃ chan, Conflict (fun ty => ∃ f ∈ traces₁ ++ more, TraceCarries f chan ty))
    (hpl : ∀ f ∈ traces₁ ++ more, f.name = [] ∨ Spec.Plain f.name)
    (hcwd : env₁.cwd = env₂.cwd)
    (hcfg : loadConfig T env₁.cwd env₁.fs (cleanPath config₁) = loadConfig T env₂.cwd env₂.fs (cleanPath config₂))
    (hrun₁ : Program.script T env₁ [config₁, trace₁] = (fs₁, 0)) (hrun₂ : Program.script T env₂ [config₂, trace₂] = (fs₂, 0)) :
    ∃ cfg named₁ named₂, loadConfig T env₁.cwd env₁.fs (cleanPath config₁) = .ok cfg ∧
      Forbidden.nameAll traces₁ = some named₁ ∧ Forbidden.nameAll (traces₁ ++ more) = some named₂ ∧
      (∀ name f, (name, f) ∈ named₁ → (name, f) ∈ named₂) ∧
      ((cfg.cpps.map (·.variant)).Nodup → ∀ name f, (name, f) ∈ named₁ → ∀ c ∈ cfg.cpps,
        let dir := locate env₁.cwd c!"out" ++ [c.variant.string, c!"src", name]
        ((c.variant = .animate → ∀ e ∈ eventsOf f, e.channel.kind ≠ kIn → ∀ g ∈ more, ∀ ty, TraceCarries g e.channel.name ty →
            ∃ ty', (∃ g ∈ traces₁, TraceCarries g e.channel.name ty') ∧ SubType ty ty') →
          SameText T fs₁ fs₂ (dir ++ [c!"src", c!"main.cpp"])) ∧
        (c.catkin ≠ none → SameText T fs₁ fs₂ (dir ++ [c!"package.xml"]) ∧ SameText T fs₁ fs₂ (dir ++ [c!"CMakeLists.txt"]))) := by
  have hty₁ : ¬ ∃ chan, Conflict (fun ty => ∃ f ∈ traces₁, TraceCarries f chan ty) := by
    rintro ⟨chan, x, y, ⟨f, hf, hx⟩, ⟨g, hg, hy⟩, hk⟩
    exact hty ⟨chan, x, y, ⟨f, List.mem_append_left _ hf, hx⟩, ⟨g, List.mem_append_left _ hg, hy⟩, hk⟩
  obtain ⟨cfg, named₁, named₂, a1, a2, a3, a4⟩ := C121_per_trace hU hc₁ hc₂ hr₁ hr₂ h₁ h₂
    (fun f hf => hev f (by simp only [List.mem_append] at hf ⊢; tauto)) hty₁ hty
    (fun f hf => hpl f (by simp only [List.mem_append] at hf ⊢; tauto)) hcwd hcfg hrun₁ hrun₂
  obtain ⟨_, named₁', _, suite₁, _, b2, _, _, b5, _⟩ := script_texts hU hc₁ hr₁ h₁ (fun f hf => hev f (by simp [hf])) hty₁
    (fun f hf => hpl f (by simp [hf])) hrun₁
  have hw : ∀ {named : GoMap Str Forbidden} {ts : List Forbidden}, Forbidden.nameAll ts = some named → GoMap.WF named := by
    intro named ts hn
    obtain ⟨names, hl, he, hd, _⟩ := nameAll_spec ts
    rw [hn] at he
    cases he
    unfold GoMap.WF
    rw [List.map_fst_zip (by omega)]
    exact hd
  have hmem : ∀ name f, (name, f) ∈ named₁ → (name, f) ∈ named₂ := fun name f hf =>
    GoMap.mem_of_get? (C16_stable traces₁ more named₁ named₂ a2 a3 name f (GoMap.get?_of_mem (hw a2) hf))
  refine ⟨cfg, named₁, named₂, a1, a2, a3, hmem, fun hv name f hf c hcc => ?_⟩
  obtain ⟨k1, k2⟩ := a4 hv name f hf (hmem name f hf) c hcc
  refine ⟨fun hst => k1 (fun hva e he hk => ?_), k2⟩
  have hin : f ∈ traces₁ := by
    obtain ⟨names, _, hn, _⟩ := nameAll_spec traces₁
    rw [a2] at hn
    cases hn
    exact (List.of_mem_zip hf).2
  obtain ⟨q1, q2⟩ := b5 e.channel.name
  cases hg : GoMap.get? suite₁.types e.channel.name with
  | none => exact absurd ⟨_, f, hin, e, he, rfl, rfl⟩ (q1.1 hg)
  | some x =>
    obtain ⟨t, _, l1, l2⟩ := q2 x hg
    refine ⟨t, ⟨l1, l2⟩, ?_, fun u hu => l2 u ?_⟩
    · rintro ty ⟨g, hg, hgt⟩
      rcases List.mem_append.1 hg with hg | hg
      · exact l1 ty ⟨g, hg, hgt⟩
      · obtain ⟨ty', h1, h2⟩ := hst hva e he hk g hg ty hgt
        exact h2.trans (l1 ty' h1)
    · rintro ty ⟨g, hg, hgt⟩
      exact hu ty ⟨g, List.mem_append_left _ hg, hgt⟩

end

/-! ### examples -/

/-- The file of C57's example with one more trace, which widens the type of the input. -/
def exMoreFile : Str := exFile ++ c!"x: a.in.-2, b.out.ok, a.in.3, b.out.no\n"

def exMoreTraces : List Forbidden :=
  [⟨c!"x", [⟨⟨c!"a", .in_⟩, .int (-2)⟩, ⟨⟨c!"b", .out⟩, .enum c!"ok"⟩, ⟨⟨c!"a", .in_⟩, .int 3⟩], ⟨⟨c!"b", .out⟩, .enum c!"no"⟩⟩]

def exMoreFs : Fs := ⟨exBothFs.isDir, fun a => if a = [c!"traces.csv"] then some (.user exMoreFile) else exBothFs.file a⟩

theorem exMore_read : Forbidden.read exMoreFile = some (.ok (exTraces ++ exMoreTraces)) := by decide +kernel

theorem exMore_reads : Reads exBothT ⟨[], exMoreFs, []⟩ c!"traces.csv" exMoreFile := by
  refine .inr ⟨by decide, by decide, .user exMoreFile, ?_, rfl⟩
  rw [show locate [] c!"traces.csv" = [c!"traces.csv"] by decide]
  rfl

theorem exMore_loads : loadConfig exBothT [] exMoreFs (cleanPath c!"cfg.xml") = .ok exBothCfg := by
  refine loadConfig_given (text := exBothText) ?_ (show Xml.parseConfig ⟨fun _ => false, fun _ => false⟩ exBothText = _ by decide +kernel) (by decide)
  rw [show locate [] (cleanPath c!"cfg.xml") = [c!"cfg.xml"] by decide]
  rfl

theorem exMore_types : ¬ ∃ chan, Conflict (fun ty => ∃ f ∈ exTraces ++ exMoreTraces, TraceCarries f chan ty) := by
  rintro ⟨chan, x, y, ⟨f, hf, e, he, hc, rfl⟩, ⟨f', hf', e', he', hc', rfl⟩, hk⟩
  have : ∀ f ∈ exTraces ++ exMoreTraces, ∀ e ∈ eventsOf f, ∀ f' ∈ exTraces ++ exMoreTraces, ∀ e' ∈ eventsOf f',
      e.channel.name = e'.channel.name → e.value.type.kind = e'.value.type.kind := by decide
  exact hk (this f hf e he f' hf' e' he' (hc.trans hc'.symm))

theorem exMore_succeeds : ∃ fs', Program.script exBothT ⟨[], exMoreFs, []⟩ [c!"cfg.xml", c!"traces.csv"] = (fs', 0) := by
  refine ⟨_, Prod.ext rfl (C91_succeeds exBothT ⟨[], exMoreFs, []⟩ c!"cfg.xml" c!"traces.csv" exMoreFile (exTraces ++ exMoreTraces) exBothCfg (by decide)
    exMore_reads exMore_read (by decide) (by decide) exMore_types (by decide) exMore_loads (by decide) ?_ ?_ ?_)⟩
  · obtain ⟨h1, h2⟩ := exBoth_empty
    have hne : ∀ a : Loc, [c!"out"] <+: a → exMoreFs.file a = exBothFs.file a := by
      rintro a ⟨r, rfl⟩
      have : ¬ [c!"out"] ++ r = [c!"traces.csv"] := fun h => absurd (List.cons.inj h).1 (by decide)
      unfold exMoreFs
      simp only [if_neg this]
    have hl : locate [] c!"out" = [c!"out"] := by decide
    refine ⟨fun a ha => ?_, fun a ha hn => ?_⟩
    · have := h1 a ha
      rcases List.prefix_cons_iff.1 (hl ▸ ha) with rfl | ⟨t, rfl, ht⟩
      · decide
      · rw [List.prefix_nil.1 ht, hne _ (List.prefix_refl _)]
        rw [List.prefix_nil.1 ht] at this
        exact this
    · obtain ⟨q1, q2⟩ := h2 a ha hn
      exact ⟨(hne a (hl ▸ ha)).trans q1, q2⟩
  · decide
  · intro c hcc
    have : ∃ ch ∈ c.channels, ch.name = c!"a" := by
      simp only [exBothCfg, List.mem_cons, List.not_mem_nil, or_false] at hcc
      rcases hcc with rfl | rfl <;> exact ⟨_, List.mem_singleton.2 rfl, rfl⟩
    obtain ⟨ch, h1, h2⟩ := this
    refine ⟨⟨ch, h1, exTraces[0], by simp [exTraces], ⟨⟨c!"a", .in_⟩, .int 1⟩, by simp [exTraces, eventsOf], h2.symm⟩, ?_⟩
    simp only [exBothCfg, List.mem_cons, List.not_mem_nil, or_false] at hcc
    rcases hcc with rfl | rfl <;> decide

/-- The hypotheses of C121 are met: both runs end with exit code 0, and the programs of the trace `x` are the same. -/
example : ∃ fs₁ fs₂, Program.script exBothT ⟨[], exBothFs, []⟩ [c!"cfg.xml", c!"traces.csv"] = (fs₁, 0) ∧
    Program.script exBothT ⟨[], exMoreFs, []⟩ [c!"cfg.xml", c!"traces.csv"] = (fs₂, 0) ∧
    SameText exBothT fs₁ fs₂ [c!"out", c!"ros", c!"src", c!"x", c!"src", c!"main.cpp"] ∧
    SameText exBothT fs₁ fs₂ [c!"out", c!"animate", c!"src", c!"x", c!"src", c!"main.cpp"] := by
  obtain ⟨fs₁, hrun₁⟩ := exBoth_succeeds
  obtain ⟨fs₂, hrun₂⟩ := exMore_succeeds
  obtain ⟨cfg, named₁, named₂, h1, h2, h3, _, h4⟩ := C121_appended (T := exBothT) asciiUnicode_ok (by decide) (by decide) exBoth_reads exMore_reads
    exFile_read exMore_read (by decide) exMore_types (by decide) rfl (exBoth_loads.trans exMore_loads.symm) hrun₁ hrun₂
  rw [exBoth_loads] at h1
  cases h1
  have hn : Forbidden.nameAll exTraces = some [(c!"x", exTraces[0]), (c!"test0", exTraces[1])] := by decide +kernel
  rw [hn] at h2
  cases h2
  have hl : locate [] c!"out" = [c!"out"] := by decide
  refine ⟨fs₁, fs₂, hrun₁, hrun₂, ?_, ?_⟩
  · have := (h4 (by decide) c!"x" exTraces[0] (List.mem_cons_self ..) _ (List.mem_cons_self ..)).1 (fun h => absurd h (by decide))
    rw [hl] at this
    exact this
  · have := (h4 (by decide) c!"x" exTraces[0] (List.mem_cons_self ..) _ (List.mem_cons_of_mem _ (List.mem_cons_self ..))).1 (fun _ e he hk g hg ty hty => by
      have hb : e.channel.name = c!"b" := by
        have : ∀ e ∈ eventsOf exTraces[0], e.channel.kind ≠ kIn → e.channel.name = c!"b" := by decide
        exact this e he hk
      obtain ⟨e', he', h1, rfl⟩ := hty
      rw [hb] at h1
      have : ∀ g ∈ exMoreTraces, ∀ e' ∈ eventsOf g, e'.channel.name = c!"b" → e'.value.type = (Value.enum c!"ok").type := by decide
      rw [hb, this g hg e' he' h1]
      exact ⟨_, ⟨exTraces[0], by simp [exTraces], ⟨⟨c!"b", .out⟩, .enum c!"ok"⟩, by simp [exTraces, eventsOf], rfl, rfl⟩, .inl rfl⟩)
    rw [hl] at this
    exact this

end Rtcg
