import Verif.Props.CppTypes
import Verif.Proofs.CppValues

/-
C119: the default conversions undo each other.
-/

namespace Rtcg

open Spec Spec.Cpp Spec.Cpp.Pre Program Programs Harness Tmpl

section suites

variable {U : Unicode} {date : Str} {c : CppConfig.Config} {ts : GoMap Str Validate.Test} {r : StmSuite}

theorem Spec.Cpp.Types.all_undo (hU : U.AsciiOK) (hv : c.variant = .animate ∨ c.variant = .ros) (h : MadeFrom ts r)
    (gc : ConvertNames U c (ChannelOf r)) (T : Str → CType) {ch : Str} {t : RsType} (ht : GoMap.get? r.types ch = some (some t))
    (ho : ¬ Overridden c ch) (hcv : Convertible c.variant t) :
    ∃ f ∈ (Tree.convertItems U c.variant (c.process r.types)).map (substItem (wordType U c.variant T (chansOf (c.process r.types)))),
    ∃ g ∈ (Tree.convertItems U c.variant (c.process r.types)).map (substItem (wordType U c.variant T (chansOf (c.process r.types)))),
      f.called (Rtcg.Cpp.convertFrom U ch) ∧ g.called (Rtcg.Cpp.convertTo U ch) ∧
      ∀ d : Datum, d.OfType t → ∃ m, g.apply d = some m ∧ f.apply (received c.variant m) = some (kept c.variant d) := by
  have hc := goodChans hU h gc
  have hτ : ∀ w, safe w = true → wordType U c.variant T (chansOf (c.process r.types)) w = none :=
    fun w hw => wordType_none (safe_undefined hc hw)
  have he := (entries h c ch _).2 ⟨t, ht, rfl⟩
  have hn := fun hh => ho ((overridden_iff c ch (some t)).1 hh)
  have hmem := (Exec.mem_sortEntries _ _).2 he
  refine ⟨_, List.mem_map_of_mem (List.mem_append_left _ (List.mem_map_of_mem hmem)),
    _, List.mem_map_of_mem (List.mem_append_right _ (List.mem_map_of_mem hmem)), rfl, rfl, fun d hd => ?_⟩
  exact Types.undo hv hτ rfl (by simpa using hn) hcv hd

/-- C119: the default conversions undo each other.  For every suite that rtcg-make-stms gives (with names as in C118), and every channel that no
type is configured for and whose type the default conversions are right for: convert.h has two functions for it, one that makes a message of
each value, and one that, given this message as it is received, returns the value; in ROS, a text up to its first zero character. -/
theorem C119_inverse (hU : U.AsciiOK) (hv : c.variant = .animate ∨ c.variant = .ros) (h : MadeFrom ts r)
    (gc : ConvertNames U c (ChannelOf r)) (T : Str → CType) :
    ∃ conv k τ, render U date (.convertH c.variant (c.process r.types)) = (conv, .ok ()) ∧ parse (lex conv) = some k ∧
      WordTypes U c.variant (ChannelOf r) T τ ∧
      ∀ ch t, GoMap.get? r.types ch = some (some t) → ¬ Overridden c ch → Convertible c.variant t →
        ∃ f ∈ k.map (substItem τ), ∃ g ∈ k.map (substItem τ), f.called (Rtcg.Cpp.convertFrom U ch) ∧ g.called (Rtcg.Cpp.convertTo U ch) ∧
          ∀ d : Datum, d.OfType t → ∃ m, g.apply d = some m ∧ f.apply (received c.variant m) = some (kept c.variant d) :=
  ⟨_, _, _, convert_renders hv h, Ok.parse_convert (Good.ok_env hU hv).toEnv (goodConvert hU h gc),
    wordTypes (goodChans hU h gc) (chan_iff h c) T, fun _ _ ht ho hcv => Types.all_undo hU hv h gc T ht ho hcv⟩

end suites

section trees

variable {T : TextLayer} {env : Env} {argv : List Str} {path text stms config output : Str} {input : Json} {s : Validate.Suite} {clean : Bool} {fs' : Fs}

/-- C119, from a suite of trees to convert.h: for every event whose channel has no configured type and whose value the default conversions are
right for, convert.h has two functions that undo each other. -/
theorem C119_trees (hU : T.unicode.AsciiOK) (ha : InputArg argv path) (hr : Reads T env path text)
    (hp : Json.parse text = .ok input) (hd : Json.decodeSuite input = .ok s)
    (hs : ∀ name root, (name, some root) ∈ s → Spec.Plain name ∧ NoIds root ∧ AllEvents (fun e => e.channel.name ≠ []) root)
    (hmake : makeStms T env argv = (stms, .ok ()))
    (hgen : gen T { env with stdin := stms } clean output [config] = (fs', .ok ())) :
    ∃ fs cfg, Gen.maybeClean env.cwd env.fs clean (cleanPath output) = (fs, .ok ()) ∧ loadConfig T env.cwd fs (cleanPath config) = .ok cfg ∧
      ((cfg.cpps.map (·.variant)).Nodup → ∀ c ∈ cfg.cpps, c.variant = .animate ∨ c.variant = .ros → ConvertNames T.unicode c (TreeChannel s) →
        ∀ V : Str → CType,
        ∃ conv k τ, HasText T fs' (locate env.cwd output ++ [c.variant.string, c!"src", c!"convert", c!"convert.h"]) conv ∧
          parse (lex conv) = some k ∧ WordTypes T.unicode c.variant (TreeChannel s) V τ ∧
          ∀ name root p n e, (name, some root) ∈ s → nodeAt root p = some n → n.outcome ≠ oFail → n.event = some e →
            ¬ Overridden c e.channel.name → ConvertsByDefault c.variant e.value →
            ∃ f ∈ k.map (substItem τ), ∃ g ∈ k.map (substItem τ), f.called (Rtcg.Cpp.convertFrom T.unicode e.channel.name) ∧
              g.called (Rtcg.Cpp.convertTo T.unicode e.channel.name) ∧
              ∀ d : Datum, d.Like e.value → ∃ m, g.apply d = some m ∧ f.apply (received c.variant m) = some (kept c.variant d)) := by
  obtain ⟨fs, cfg, vs, suite, h1, h2, h3, h4, h5, h7, h6⟩ := suite_texts hU ha hr hp hd hs hmake hgen
  refine ⟨fs, cfg, h1, h2, fun hv c hcc hvar gs V => ?_⟩
  have hcar : ∀ ch ty, SuiteCarries vs ch ty ↔ ∃ name root, (name, some root) ∈ s ∧ Carries root ch ty := by
    intro ch ty
    constructor
    · rintro ⟨⟨k, t⟩, q1, q2⟩
      exact ⟨k, t.root, (h5 _ _).1 q1, q2⟩
    · rintro ⟨k, root, q1, q2⟩
      exact ⟨(k, ⟨root⟩), (h5 _ ⟨root⟩).2 q1, q2⟩
  have hce' : ∀ ch, SuiteCarries vs ch = fun ty => ∃ name root, (name, some root) ∈ s ∧ Carries root ch ty :=
    fun ch => funext fun ty => propext (hcar ch ty)
  have hchan : ∀ ch, ChannelOf suite ch ↔ TreeChannel s ch := by
    intro ch
    have ht := made_typesAre h3 ch
    have hcar : (∃ ty, SuiteCarries vs ch ty) ↔ TreeChannel s ch := by
      constructor
      · rintro ⟨ty, h⟩
        obtain ⟨k, root, q1, q2⟩ := (hcar ch ty).1 h
        exact ⟨k, root, ty, q1, q2⟩
      · rintro ⟨k, root, ty, q1, q2⟩
        exact ⟨ty, (hcar ch ty).2 ⟨k, root, q1, q2⟩⟩
    rw [← hcar]
    constructor
    · rintro ⟨t, h⟩
      refine Classical.byContradiction fun hn => ?_
      rw [ht.1.2 hn] at h
      cases h
    · intro h
      cases hg : GoMap.get? suite.types ch with
      | none => exact absurd h (ht.1.1 hg)
      | some t => exact ⟨t, hg⟩
  have hce : TreeChannel s = ChannelOf suite := funext fun ch => propext (hchan ch).symm
  have hbase : ∀ ch t, GoMap.get? suite.types ch = some (some t) →
      LeastUpper (fun ty => ∃ name root, (name, some root) ∈ s ∧ Carries root ch ty) t := by
    intro ch t h
    obtain ⟨ty, e, hl⟩ := (made_typesAre h3 ch).2 _ h
    cases e
    rw [hce'] at hl
    exact hl
  rw [hce] at gs ⊢
  obtain ⟨conv, k, τ, k1, k2, k3, k4⟩ := C119_inverse (date := T.date) hU hvar h3 gs V
  rw [convert_renders hvar h3] at k1
  cases k1
  refine ⟨_, k, τ, ?_, k2, k3, ?_⟩
  · have := h7 hv c hcc
    rwa [List.append_assoc] at this
  · have hval : ∀ ch ty, (∃ name root, (name, some root) ∈ s ∧ Carries root ch ty) → ∃ v : Value, ty = v.type := by
      rintro ch ty ⟨_, _, _, _, _, e, _, _, _, _, rfl⟩
      exact ⟨_, rfl⟩
    intro name root p n e q1 q2 q3 q4 ho hcd
    obtain ⟨t, ht⟩ := (hchan e.channel.name).2 ⟨name, root, e.value.type, q1, p, n, e, q2, q3, q4, rfl, rfl⟩
    obtain ⟨ty, rfl, _⟩ := (made_typesAre h3 _).2 _ ht
    have huse : ∃ name root, (name, some root) ∈ s ∧ Carries root e.channel.name e.value.type := ⟨name, root, q1, p, n, e, q2, q3, q4, rfl, rfl⟩
    obtain ⟨f, hf, g, hg, k5, k6, k7⟩ := k4 _ _ ht ho ((Types.convertible_lub (hval _) (hbase _ _ ht) huse).2 hcd)
    exact ⟨f, hf, g, hg, k5, k6, fun d hd => k7 d (Types.ofType_like (hbase _ _ ht) huse hd)⟩

end trees

section traces

variable {T : TextLayer} {env : Env} {config trace file : Str} {traces : List Forbidden} {fs' : Fs}

/-- C119, from a file of forbidden traces to convert.h. -/
theorem C119_traces (hU : T.unicode.AsciiOK) (hc : config.head? ≠ some '-') (hr : Reads T env trace file)
    (h : Forbidden.read file = some (.ok traces))
    (hev : ∀ f ∈ traces, ∀ e ∈ eventsOf f, e.channel.name ≠ [] ∧ e.value ≠ .none)
    (hty : ¬ ∃ chan, Conflict (fun ty => ∃ f ∈ traces, TraceCarries f chan ty))
    (hpl : ∀ f ∈ traces, f.name = [] ∨ Spec.Plain f.name)
    (hrun : Program.script T env [config, trace] = (fs', 0)) :
    ∃ cfg, loadConfig T env.cwd env.fs (cleanPath config) = .ok cfg ∧
      ((cfg.cpps.map (·.variant)).Nodup → ∀ c ∈ cfg.cpps, c.variant = .animate ∨ c.variant = .ros → ConvertNames T.unicode c (TraceChannel traces) →
        ∀ V : Str → CType,
        ∃ conv k τ, HasText T fs' (locate env.cwd c!"out" ++ [c.variant.string, c!"src", c!"convert", c!"convert.h"]) conv ∧
          parse (lex conv) = some k ∧ WordTypes T.unicode c.variant (TraceChannel traces) V τ ∧
          ∀ f ∈ traces, ∀ e ∈ eventsOf f, ¬ Overridden c e.channel.name → ConvertsByDefault c.variant e.value →
            ∃ a ∈ k.map (substItem τ), ∃ b ∈ k.map (substItem τ), a.called (Rtcg.Cpp.convertFrom T.unicode e.channel.name) ∧
              b.called (Rtcg.Cpp.convertTo T.unicode e.channel.name) ∧
              ∀ d : Datum, d.Like e.value → ∃ m, b.apply d = some m ∧ a.apply (received c.variant m) = some (kept c.variant d)) := by
  obtain ⟨cfg, named, ts, suite, h1, h2, h3, h4, h5, h7, h6⟩ := script_texts hU hc hr h hev hty hpl hrun
  refine ⟨cfg, h1, fun hv c hcc hvar gs V => ?_⟩
  have hchan : ∀ ch, ChannelOf suite ch ↔ TraceChannel traces ch := by
    intro ch
    constructor
    · rintro ⟨t, h⟩
      obtain ⟨ty, f, q1, e, q2, q3, _⟩ : ∃ ty, ∃ f ∈ traces, TraceCarries f ch ty := by
        refine Classical.byContradiction fun hn => ?_
        rw [(h5 ch).1.2 hn] at h
        cases h
      exact ⟨f, q1, e, q2, q3⟩
    · rintro ⟨f, q1, e, q2, q3⟩
      cases hg : GoMap.get? suite.types ch with
      | none => exact absurd ⟨_, f, q1, e, q2, q3, rfl⟩ ((h5 ch).1.1 hg)
      | some t => exact ⟨t, hg⟩
  have hce : TraceChannel traces = ChannelOf suite := funext fun ch => propext (hchan ch).symm
  have hbase : ∀ ch t, GoMap.get? suite.types ch = some (some t) → LeastUpper (fun ty => ∃ f ∈ traces, TraceCarries f ch ty) t := by
    intro ch t h
    obtain ⟨ty, e, hl⟩ := (h5 ch).2 _ h
    cases e
    exact hl
  rw [hce] at gs ⊢
  obtain ⟨conv, k, τ, k1, k2, k3, k4⟩ := C119_inverse (date := T.date) hU hvar h3 gs V
  rw [convert_renders hvar h3] at k1
  cases k1
  refine ⟨_, k, τ, ?_, k2, k3, ?_⟩
  · have := h7 hv c hcc
    rwa [List.append_assoc] at this
  · have hval : ∀ ch ty, (∃ f ∈ traces, TraceCarries f ch ty) → ∃ v : Value, ty = v.type := by
      rintro ch ty ⟨_, _, e, _, _, rfl⟩
      exact ⟨_, rfl⟩
    intro f hf e he ho hcd
    obtain ⟨t, ht⟩ := (hchan e.channel.name).2 ⟨f, hf, e, he, rfl⟩
    obtain ⟨ty, rfl, _⟩ := (h5 _).2 _ ht
    have huse : ∃ f ∈ traces, TraceCarries f e.channel.name e.value.type := ⟨f, hf, e, he, rfl, rfl⟩
    obtain ⟨f, hf, g, hg, k5, k6, k7⟩ := k4 _ _ ht ho ((Types.convertible_lub (hval _) (hbase _ _ ht) huse).2 hcd)
    exact ⟨f, hf, g, hg, k5, k6, fun d hd => k7 d (Types.ofType_like (hbase _ _ ht) huse hd)⟩

end traces

/-! ### examples -/

/-- The hypotheses of C119 about traces are met: in the example of C115, the text ok on b is kept by the conversions of the animation. -/
example : ∃ fs' conv k τ, Program.script exBothT ⟨[], exBothFs, []⟩ [c!"cfg.xml", c!"traces.csv"] = (fs', 0) ∧
    HasText exBothT fs' [c!"out", c!"animate", c!"src", c!"convert", c!"convert.h"] conv ∧ parse (lex conv) = some k ∧
    ∃ a ∈ k.map (substItem τ), ∃ b ∈ k.map (substItem τ), a.called c!"fromB" ∧ b.called c!"toB" ∧
      ∃ m, b.apply (.text c!"ok") = some m ∧ a.apply m = some (.text c!"ok") := by
  obtain ⟨fs', hrun⟩ := exBoth_succeeds
  obtain ⟨cfg, h1, h2⟩ := C119_traces (T := exBothT) asciiUnicode_ok (by decide) exBoth_reads exFile_read exTraces_events exTraces_types
    (by decide) hrun
  rw [exBoth_loads] at h1
  cases h1
  obtain ⟨conv, k, τ, k1, k2, _, k3⟩ := h2 (by decide) _ (List.mem_cons_of_mem _ (List.mem_cons_self ..)) (.inl rfl) (exBoth_convert _) exV
  obtain ⟨a, ha, b, hb, k4, k5, k6⟩ := k3 _ (List.mem_cons_self ..) ⟨⟨c!"b", .out⟩, .enum c!"ok"⟩ (by simp [eventsOf]) (by decide) trivial
  obtain ⟨m, k7, k8⟩ := k6 (.text c!"ok") ⟨_, rfl⟩
  have hm : received .animate m = m := by cases m <;> rfl
  refine ⟨fs', conv, k, τ, hrun, k1, k2, a, ha, b, hb, k4, k5, m, k7, ?_⟩
  rw [← hm]
  exact k8

/-- … and so are those about trees: numbers on b. -/
example : ∃ stms fs' conv k τ, makeStms exBothT ⟨[], exBothFs, exSuiteText⟩ [c!"rtcg-make-stms"] = (stms, .ok ()) ∧
    gen exBothT ⟨[], exBothFs, stms⟩ false c!"out" [c!"cfg.xml"] = (fs', .ok ()) ∧
    HasText exBothT fs' [c!"out", c!"animate", c!"src", c!"convert", c!"convert.h"] conv ∧ parse (lex conv) = some k ∧
    ∃ a ∈ k.map (substItem τ), ∃ b ∈ k.map (substItem τ), a.called c!"fromB" ∧ b.called c!"toB" ∧
      ∃ m, b.apply (.number 7) = some m ∧ a.apply m = some (.number 7) := by
  obtain ⟨stms, fs', hm, hg⟩ := exSuite_succeeds
  obtain ⟨input, hp, hd⟩ := exSuite_parse
  obtain ⟨fs, cfg, h1, h2, h3⟩ := C119_trees (T := exBothT) (env := ⟨[], exBothFs, exSuiteText⟩) (argv := [c!"rtcg-make-stms"]) (path := c!"-")
    asciiUnicode_ok (.inl ⟨_, rfl, rfl⟩) (.inl ⟨by decide, rfl⟩) hp hd (fun name root h => by
      obtain ⟨h1, h2⟩ := exSuite_tree h
      cases h2
      rw [h1]
      exact ⟨by unfold Spec.Plain; decide, noIds_of _ (by decide), fun p n e h1 h2 => (exShared_events p n e h1 h2).1⟩) hm hg
  have hfs : fs = exBothFs := by
    unfold Gen.maybeClean at h1
    simp at h1
    exact h1.symm
  subst hfs
  rw [exBoth_loads] at h2
  cases h2
  obtain ⟨conv, k, τ, k1, k2, _, k3⟩ := h3 (by decide) _ (List.mem_cons_of_mem _ (List.mem_cons_self ..)) (.inl rfl) (exShared_convert _) exW
  obtain ⟨a, ha, b, hb, k4, k5, k6⟩ := k3 c!"x" exShared [0, 0] _ ⟨⟨c!"b", .out⟩, .int 2⟩ (List.mem_singleton.2 rfl) rfl (by decide) rfl (by decide) rfl
  obtain ⟨m, k7, k8⟩ := k6 (.number 7) ⟨_, rfl⟩
  have hm' : received .animate m = m := by cases m <;> rfl
  refine ⟨stms, fs', conv, k, τ, hm, hg, k1, k2, a, ha, b, hb, k4, k5, m, k7, ?_⟩
  rw [← hm']
  exact k8

/-- The types of the suite of a trace that ends with a constant -/
def exWordTypes : TypeMap := [(c!"go", some RsType.enum)]

def exWordStm : Stm :=
  ⟨[⟨c!"initial", [⟨⟨c!"go", .out⟩, [⟨.enum c!"ok", c!"step0"⟩]⟩], [(c!"t", oPass)]⟩, ⟨c!"step0", [], [(c!"t", oFail)]⟩],
    exWordTypes, [(c!"t", true)]⟩

theorem exWord_made : ∃ ts, MadeFrom ts ⟨exWordTypes, [(c!"t", exWordStm)]⟩ ∧ ∀ nt ∈ ts, NoIds nt.2.root :=
  ⟨_, made_of_trace ⟨[], [], ⟨⟨c!"go", .out⟩, .enum c!"ok"⟩⟩ c!"t" _ _ (by rfl)⟩

theorem exWord_convert : ConvertNames asciiUnicode exRos (ChannelOf ⟨exWordTypes, [(c!"t", exWordStm)]⟩) := by
  have hch : ∀ ch, ChannelOf ⟨exWordTypes, [(c!"t", exWordStm)]⟩ ch → ch = c!"go" := by
    rintro ch ⟨t, h⟩
    have := GoMap.mem_of_get? h
    simp only [exWordTypes, List.mem_cons, Prod.mk.injEq, List.not_mem_nil, or_false] at this
    exact this.1
  refine ⟨?_, ?_, by simp [exRos], by simp [exRos]⟩
  · intro ch h
    rw [hch _ h]
    unfold WordName
    decide
  · intro x y hx hy
    rw [hch _ hx, hch _ hy]
    decide

/-- C119: that texts end before their first zero character is so: a suite whose conversions for ROS keep ok, and of o, zero, k only o. -/
theorem C119_zero : ∃ ts r c conv k τ, MadeFrom ts r ∧ (∀ nt ∈ ts, NoIds nt.2.root) ∧ c.variant = .ros ∧ ConvertNames asciiUnicode c (ChannelOf r) ∧
    render asciiUnicode c!"today" (.convertH c.variant (c.process r.types)) = (conv, .ok ()) ∧ parse (lex conv) = some k ∧
    ∃ a ∈ k.map (substItem τ), ∃ b ∈ k.map (substItem τ), a.called c!"fromGo" ∧ b.called c!"toGo" ∧
      (∃ m, b.apply (.text c!"ok") = some m ∧ a.apply (received .ros m) = some (.text c!"ok")) ∧
      ∃ m, b.apply (.text ['o', '\x00', 'k']) = some m ∧ a.apply (received .ros m) = some (.text c!"o") := by
  obtain ⟨ts, h1, h2⟩ := exWord_made
  obtain ⟨conv, k, τ, k1, k2, _, k3⟩ := C119_inverse (date := c!"today") (c := exRos) asciiUnicode_ok (.inr rfl) h1 exWord_convert (fun _ => exText)
  obtain ⟨a, ha, b, hb, k4, k5, k6⟩ := k3 c!"go" RsType.enum rfl (fun h => by
    obtain ⟨ty, h, _⟩ := h
    exact absurd h (by rw [show configuredType exRos c!"go" = none from rfl]; simp)) (.inl rfl)
  exact ⟨ts, _, exRos, conv, k, τ, h1, h2, rfl, exWord_convert, k1, k2, a, ha, b, hb, k4, k5, k6 (.text c!"ok") rfl, k6 (.text ['o', '\x00', 'k']) rfl⟩

end Rtcg
