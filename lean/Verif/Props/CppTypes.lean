import Verif.Props.CppPre
import Verif.Proofs.CppTypes

/-
C118: which of the conversions in convert.h are right about types.
-/

namespace Rtcg

open Spec Spec.Cpp Spec.Cpp.Pre Program Programs Harness Tmpl

section suites

variable {U : Unicode} {date : Str} {c : CppConfig.Config} {ts : GoMap Str Validate.Test} {r : StmSuite}

theorem Spec.Cpp.Types.all_typed (hU : U.AsciiOK) (hv : c.variant = .animate ∨ c.variant = .ros) (h : MadeFrom ts r)
    (gc : ConvertNames U c (ChannelOf r)) {T : Str → CType}
    (hT : ChannelTypes U c (ChannelOf r) (fun ch t => GoMap.get? r.types ch = some (some t)) T) :
    (∀ i ∈ (Tree.convertItems U c.variant (c.process r.types)).map (substItem (wordType U c.variant T (chansOf (c.process r.types)))),
        functionTyped i = true) ↔
      ∀ ch t, GoMap.get? r.types ch = some (some t) → ¬ Overridden c ch → Convertible c.variant t := by
  have hc := goodChans hU h gc
  have hτ : ∀ w, safe w = true → wordType U c.variant T (chansOf (c.process r.types)) w = none :=
    fun w hw => wordType_none (safe_undefined hc hw)
  have hin : ∀ (ch : Str) (t : RsType), GoMap.get? r.types ch = some (some t) → ch ∈ chansOf (c.process r.types) :=
    fun ch t ht => (chan_iff h c ch).2 ⟨_, ht⟩
  have one : ∀ (ch : Str) (t : RsType) (ct : CppConfig.ChannelType), GoMap.get? r.types ch = some (some t) →
      (ch, ct) ∈ (c.process r.types).channelTypes → ¬ Overridden c ch →
      (functionTyped (substItem (wordType U c.variant T (chansOf (c.process r.types))) (Tree.fromItem U c.variant (ch, ct))) = true ↔
        Convertible c.variant t) ∧
      (functionTyped (substItem (wordType U c.variant T (chansOf (c.process r.types))) (Tree.toItem U c.variant (ch, ct))) = true ↔
        Convertible c.variant t) := by
    intro ch t ct ht he ho
    obtain ⟨t', h1, rfl⟩ := (entries h c ch ct).1 he
    rw [ht] at h1
    cases h1
    have hd := hT.default ch t ⟨_, ht⟩ ht ho
    have hn := fun hh => ho ((overridden_iff c ch (some t)).1 hh)
    exact ⟨Types.from_typed hv hτ (by rw [wordType_msg hc (hin ch t ht), hd]) rfl (by simpa using hn),
      Types.to_typed hv hτ (by rw [wordType_value hc (hin ch t ht), hd]) rfl (by simpa using hn)⟩
  constructor
  · intro hall ch t ht ho
    have he := (entries h c ch _).2 ⟨t, ht, rfl⟩
    refine (one ch t _ ht he ho).1.1 (hall _ (List.mem_map_of_mem (List.mem_append_left _ (List.mem_map_of_mem ?_))))
    exact (Exec.mem_sortEntries _ _).2 he
  · intro hall i hi
    obtain ⟨j, hj, rfl⟩ := List.mem_map.1 hi
    have key : ∀ e ∈ (c.process r.types).channelTypes,
        functionTyped (substItem (wordType U c.variant T (chansOf (c.process r.types))) (Tree.fromItem U c.variant e)) = true ∧
        functionTyped (substItem (wordType U c.variant T (chansOf (c.process r.types))) (Tree.toItem U c.variant e)) = true := by
      rintro ⟨ch, ct⟩ he
      obtain ⟨t, h1, h2⟩ := (entries h c ch ct).1 he
      by_cases ho : Overridden c ch
      · refine Types.declared_typed ?_
        rw [h2]
        exact (overridden_iff c ch (some t)).2 ho
      · obtain ⟨k1, k2⟩ := one ch t ct h1 he ho
        exact ⟨k1.2 (hall ch t h1 ho), k2.2 (hall ch t h1 ho)⟩
    rcases List.mem_append.1 hj with hj | hj
    · obtain ⟨e, he, rfl⟩ := List.mem_map.1 hj
      exact (key e ((Exec.mem_sortEntries _ e).1 he)).1
    · obtain ⟨e, he, rfl⟩ := List.mem_map.1 hj
      exact (key e ((Exec.mem_sortEntries _ e).1 he)).2

/-- C118 (partial: the property asks that they always are): which of the functions in convert.h are right about types.  For every suite that
rtcg-make-stms gives, if the channels are called by words that differ in more than the case of their first letter, and the configured types are
types: convert.h is a sequence of C++ functions, which, with the words that convert.h defines replaced, are all right about types exactly when
all channels that no type is configured for have types that the default conversions are right for; these are, for the variant animate, numbers
and constants, and for ROS constants only. -/
theorem C118_typed_partial (hU : U.AsciiOK) (hv : c.variant = .animate ∨ c.variant = .ros) (h : MadeFrom ts r)
    (gc : ConvertNames U c (ChannelOf r)) {T : Str → CType}
    (hT : ChannelTypes U c (ChannelOf r) (fun ch t => GoMap.get? r.types ch = some (some t)) T) :
    ∃ conv k τ, render U date (.convertH c.variant (c.process r.types)) = (conv, .ok ()) ∧ parse (lex conv) = some k ∧
      WordTypes U c.variant (ChannelOf r) T τ ∧
      ((∀ i ∈ k.map (substItem τ), functionTyped i = true) ↔
        ∀ ch t, GoMap.get? r.types ch = some (some t) → ¬ Overridden c ch → Convertible c.variant t) :=
  ⟨_, _, _, convert_renders hv h, Ok.parse_convert (Good.ok_env hU hv).toEnv (goodConvert hU h gc),
    wordTypes (goodChans hU h gc) (chan_iff h c) T, Types.all_typed hU hv h gc hT⟩

end suites

section trees

variable {T : TextLayer} {env : Env} {argv : List Str} {path text stms config output : Str} {input : Json} {s : Validate.Suite} {clean : Bool} {fs' : Fs}

/-- C118 (partial), from a suite of trees to convert.h: its functions are right about types exactly when no channel that no type is configured
for carries a value that the default conversions are not right for: for the variant animate, no value, and for ROS also any number. -/
theorem C118_trees_partial (hU : T.unicode.AsciiOK) (ha : InputArg argv path) (hr : Reads T env path text)
    (hp : Json.parse text = .ok input) (hd : Json.decodeSuite input = .ok s)
    (hs : ∀ name root, (name, some root) ∈ s → Spec.Plain name ∧ NoIds root ∧ AllEvents (fun e => e.channel.name ≠ []) root)
    (hmake : makeStms T env argv = (stms, .ok ()))
    (hgen : gen T { env with stdin := stms } clean output [config] = (fs', .ok ())) :
    ∃ fs cfg, Gen.maybeClean env.cwd env.fs clean (cleanPath output) = (fs, .ok ()) ∧ loadConfig T env.cwd fs (cleanPath config) = .ok cfg ∧
      ((cfg.cpps.map (·.variant)).Nodup → ∀ c ∈ cfg.cpps, c.variant = .animate ∨ c.variant = .ros → ConvertNames T.unicode c (TreeChannel s) →
        ∀ V, ChannelTypes T.unicode c (TreeChannel s)
          (fun ch => LeastUpper (fun ty => ∃ name root, (name, some root) ∈ s ∧ Carries root ch ty)) V →
        ∃ conv k τ, HasText T fs' (locate env.cwd output ++ [c.variant.string, c!"src", c!"convert", c!"convert.h"]) conv ∧
          parse (lex conv) = some k ∧ WordTypes T.unicode c.variant (TreeChannel s) V τ ∧
          ((∀ i ∈ k.map (substItem τ), functionTyped i = true) ↔
            ∀ name root p n e, (name, some root) ∈ s → nodeAt root p = some n → n.outcome ≠ oFail → n.event = some e →
              ¬ Overridden c e.channel.name → ConvertsByDefault c.variant e.value)) := by
  obtain ⟨fs, cfg, vs, suite, h1, h2, h3, h4, h5, h7, h6⟩ := suite_texts hU ha hr hp hd hs hmake hgen
  refine ⟨fs, cfg, h1, h2, fun hv c hcc hvar gs V hV => ?_⟩
  have hcar : ∀ ch ty, SuiteCarries vs ch ty ↔ ∃ name root, (name, some root) ∈ s ∧ Carries root ch ty := by
    intro ch ty
    constructor
    · rintro ⟨⟨k, t⟩, q1, q2⟩
      exact ⟨k, t.root, (h5 _ _).1 q1, q2⟩
    · rintro ⟨k, root, q1, q2⟩
      exact ⟨(k, ⟨root⟩), (h5 _ ⟨root⟩).2 q1, q2⟩
  have hce' : ∀ ch, SuiteCarries vs ch = fun ty => ∃ name root, (name, some root) ∈ s ∧ Carries root ch ty :=
    fun ch => funext fun ty => propext (hcar ch ty)
  have hchan : ∀ ch, ChannelOf suite ch ↔ TreeChannel s ch := by
    intro ch
    have ht := made_typesAre h3 ch
    have hcar : (∃ ty, SuiteCarries vs ch ty) ↔ TreeChannel s ch := by
      constructor
      · rintro ⟨ty, h⟩
        obtain ⟨k, root, q1, q2⟩ := (hcar ch ty).1 h
        exact ⟨k, root, ty, q1, q2⟩
      · rintro ⟨k, root, ty, q1, q2⟩
        exact ⟨ty, (hcar ch ty).2 ⟨k, root, q1, q2⟩⟩
    rw [← hcar]
    constructor
    · rintro ⟨t, h⟩
      refine Classical.byContradiction fun hn => ?_
      rw [ht.1.2 hn] at h
      cases h
    · intro h
      cases hg : GoMap.get? suite.types ch with
      | none => exact absurd h (ht.1.1 hg)
      | some t => exact ⟨t, hg⟩
  have hce : TreeChannel s = ChannelOf suite := funext fun ch => propext (hchan ch).symm
  have hbase : ∀ ch t, GoMap.get? suite.types ch = some (some t) →
      LeastUpper (fun ty => ∃ name root, (name, some root) ∈ s ∧ Carries root ch ty) t := by
    intro ch t h
    obtain ⟨ty, e, hl⟩ := (made_typesAre h3 ch).2 _ h
    cases e
    rw [hce'] at hl
    exact hl
  have hV' := channelTypes_congr hV hchan (base' := fun ch t => GoMap.get? suite.types ch = some (some t)) hbase
  rw [hce] at gs ⊢
  obtain ⟨conv, k, τ, k1, k2, k3, k4⟩ := C118_typed_partial (date := T.date) hU hvar h3 gs hV'
  rw [convert_renders hvar h3] at k1
  cases k1
  refine ⟨_, k, τ, ?_, k2, k3, k4.trans ?_⟩
  · have := h7 hv c hcc
    rwa [List.append_assoc] at this
  · have hval : ∀ ch ty, (∃ name root, (name, some root) ∈ s ∧ Carries root ch ty) → ∃ v : Value, ty = v.type := by
      rintro ch ty ⟨_, _, _, _, _, e, _, _, _, _, rfl⟩
      exact ⟨_, rfl⟩
    constructor
    · intro hall name root p n e q1 q2 q3 q4 ho
      obtain ⟨t, ht⟩ := (hchan e.channel.name).2 ⟨name, root, e.value.type, q1, p, n, e, q2, q3, q4, rfl, rfl⟩
      obtain ⟨ty, rfl, _⟩ := (made_typesAre h3 _).2 _ ht
      exact (Types.convertible_lub (hval _) (hbase _ _ ht) ⟨name, root, q1, p, n, e, q2, q3, q4, rfl, rfl⟩).1 (hall _ _ ht ho)
    · intro hall ch t ht ho
      obtain ⟨name, root, _, q1, p, n, e, q2, q3, q4, rfl, _⟩ := (hchan ch).1 ⟨_, ht⟩
      exact (Types.convertible_lub (hval _) (hbase _ _ ht) ⟨name, root, q1, p, n, e, q2, q3, q4, rfl, rfl⟩).2 (hall name root p n e q1 q2 q3 q4 ho)

end trees

section traces

variable {T : TextLayer} {env : Env} {config trace file : Str} {traces : List Forbidden} {fs' : Fs}

/-- C118 (partial), from a file of forbidden traces to convert.h: for the variant animate its functions are right about types; for ROS they are
exactly when no channel that no type is configured for carries a number. -/
theorem C118_traces_partial (hU : T.unicode.AsciiOK) (hc : config.head? ≠ some '-') (hr : Reads T env trace file)
    (h : Forbidden.read file = some (.ok traces))
    (hev : ∀ f ∈ traces, ∀ e ∈ eventsOf f, e.channel.name ≠ [] ∧ e.value ≠ .none)
    (hty : ¬ ∃ chan, Conflict (fun ty => ∃ f ∈ traces, TraceCarries f chan ty))
    (hpl : ∀ f ∈ traces, f.name = [] ∨ Spec.Plain f.name)
    (hrun : Program.script T env [config, trace] = (fs', 0)) :
    ∃ cfg, loadConfig T env.cwd env.fs (cleanPath config) = .ok cfg ∧
      ((cfg.cpps.map (·.variant)).Nodup → ∀ c ∈ cfg.cpps, c.variant = .animate ∨ c.variant = .ros → ConvertNames T.unicode c (TraceChannel traces) →
        ∀ V, ChannelTypes T.unicode c (TraceChannel traces) (fun ch => LeastUpper (fun ty => ∃ f ∈ traces, TraceCarries f ch ty)) V →
        ∃ conv k τ, HasText T fs' (locate env.cwd c!"out" ++ [c.variant.string, c!"src", c!"convert", c!"convert.h"]) conv ∧
          parse (lex conv) = some k ∧ WordTypes T.unicode c.variant (TraceChannel traces) V τ ∧
          ((∀ i ∈ k.map (substItem τ), functionTyped i = true) ↔
            (c.variant = .ros → ∀ f ∈ traces, ∀ e ∈ eventsOf f, ¬ Overridden c e.channel.name → ∃ w, e.value = .enum w))) := by
  obtain ⟨cfg, named, ts, suite, h1, h2, h3, h4, h5, h7, h6⟩ := script_texts hU hc hr h hev hty hpl hrun
  refine ⟨cfg, h1, fun hv c hcc hvar gs V hV => ?_⟩
  have hchan : ∀ ch, ChannelOf suite ch ↔ TraceChannel traces ch := by
    intro ch
    constructor
    · rintro ⟨t, h⟩
      obtain ⟨ty, f, q1, e, q2, q3, _⟩ : ∃ ty, ∃ f ∈ traces, TraceCarries f ch ty := by
        refine Classical.byContradiction fun hn => ?_
        rw [(h5 ch).1.2 hn] at h
        cases h
      exact ⟨f, q1, e, q2, q3⟩
    · rintro ⟨f, q1, e, q2, q3⟩
      cases hg : GoMap.get? suite.types ch with
      | none => exact absurd ⟨_, f, q1, e, q2, q3, rfl⟩ ((h5 ch).1.1 hg)
      | some t => exact ⟨t, hg⟩
  have hce : TraceChannel traces = ChannelOf suite := funext fun ch => propext (hchan ch).symm
  have hbase : ∀ ch t, GoMap.get? suite.types ch = some (some t) → LeastUpper (fun ty => ∃ f ∈ traces, TraceCarries f ch ty) t := by
    intro ch t h
    obtain ⟨ty, e, hl⟩ := (h5 ch).2 _ h
    cases e
    exact hl
  have hV' := channelTypes_congr hV hchan (base' := fun ch t => GoMap.get? suite.types ch = some (some t)) hbase
  rw [hce] at gs ⊢
  obtain ⟨conv, k, τ, k1, k2, k3, k4⟩ := C118_typed_partial (date := T.date) hU hvar h3 gs hV'
  rw [convert_renders hvar h3] at k1
  cases k1
  refine ⟨_, k, τ, ?_, k2, k3, k4.trans ?_⟩
  · have := h7 hv c hcc
    rwa [List.append_assoc] at this
  · have hval : ∀ ch ty, (∃ f ∈ traces, TraceCarries f ch ty) → ∃ v : Value, ty = v.type := by
      rintro ch ty ⟨_, _, e, _, _, rfl⟩
      exact ⟨_, rfl⟩
    have hdef : ∀ f ∈ traces, ∀ e ∈ eventsOf f, (ConvertsByDefault c.variant e.value ↔ (c.variant = .ros → ∃ w, e.value = .enum w)) := by
      intro f hf e he
      have hne := (hev f hf e he).2
      cases hvv : e.value with
      | none => exact absurd hvv hne
      | enum w => exact ⟨fun _ _ => ⟨w, rfl⟩, fun _ => trivial⟩
      | int i =>
        show c.variant = .animate ↔ _
        rcases hvar with hva | hva
        · rw [hva]; exact ⟨fun _ h => absurd h (by decide), fun _ => rfl⟩
        · rw [hva]
          refine ⟨fun h => absurd h (by decide), fun h => ?_⟩
          obtain ⟨w, hw⟩ := h rfl
          cases hw
    constructor
    · intro hall hros f hf e he ho
      obtain ⟨t, ht⟩ := (hchan e.channel.name).2 ⟨f, hf, e, he, rfl⟩
      obtain ⟨ty, rfl, _⟩ := (h5 _).2 _ ht
      exact (hdef f hf e he).1 ((Types.convertible_lub (hval _) (hbase _ _ ht) ⟨f, hf, e, he, rfl, rfl⟩).1 (hall _ _ ht ho)) hros
    · intro hall ch t ht ho
      obtain ⟨f, hf, e, he, rfl⟩ := (hchan ch).1 ⟨_, ht⟩
      exact (Types.convertible_lub (hval _) (hbase _ _ ht) ⟨f, hf, e, he, rfl, rfl⟩).2
        ((hdef f hf e he).2 fun hros => hall hros f hf e he ho)

end traces

/-! ### examples -/

/-- The hypotheses of C118 about traces are met: in the example of C115, where a type is configured for a and b carries texts, the conversions
of the animation are right about types. -/
example : ∃ fs' conv k τ, Program.script exBothT ⟨[], exBothFs, []⟩ [c!"cfg.xml", c!"traces.csv"] = (fs', 0) ∧
    HasText exBothT fs' [c!"out", c!"animate", c!"src", c!"convert", c!"convert.h"] conv ∧ parse (lex conv) = some k ∧
    ∀ i ∈ k.map (substItem τ), functionTyped i = true := by
  obtain ⟨fs', hrun⟩ := exBoth_succeeds
  obtain ⟨cfg, h1, h2⟩ := C118_traces_partial (T := exBothT) asciiUnicode_ok (by decide) exBoth_reads exFile_read exTraces_events exTraces_types
    (by decide) hrun
  rw [exBoth_loads] at h1
  cases h1
  obtain ⟨conv, k, τ, k1, k2, _, k3⟩ := h2 (by decide) _ (List.mem_cons_of_mem _ (List.mem_cons_self ..)) (.inl rfl) (exBoth_convert _) exV exV_types
  exact ⟨fs', conv, k, τ, hrun, k1, k2, k3.2 fun h => absurd h (by decide)⟩

/-- … and so are those about trees: types and texts again, with numbers on b. -/
example : ∃ stms fs' conv k τ, makeStms exBothT ⟨[], exBothFs, exSuiteText⟩ [c!"rtcg-make-stms"] = (stms, .ok ()) ∧
    gen exBothT ⟨[], exBothFs, stms⟩ false c!"out" [c!"cfg.xml"] = (fs', .ok ()) ∧
    HasText exBothT fs' [c!"out", c!"animate", c!"src", c!"convert", c!"convert.h"] conv ∧ parse (lex conv) = some k ∧
    ∀ i ∈ k.map (substItem τ), functionTyped i = true := by
  obtain ⟨stms, fs', hm, hg⟩ := exSuite_succeeds
  obtain ⟨input, hp, hd⟩ := exSuite_parse
  obtain ⟨fs, cfg, h1, h2, h3⟩ := C118_trees_partial (T := exBothT) (env := ⟨[], exBothFs, exSuiteText⟩) (argv := [c!"rtcg-make-stms"]) (path := c!"-")
    asciiUnicode_ok (.inl ⟨_, rfl, rfl⟩) (.inl ⟨by decide, rfl⟩) hp hd (fun name root h => by
      obtain ⟨h1, h2⟩ := exSuite_tree h
      cases h2
      rw [h1]
      exact ⟨by unfold Spec.Plain; decide, noIds_of _ (by decide), fun p n e h1 h2 => (exShared_events p n e h1 h2).1⟩) hm hg
  have hfs : fs = exBothFs := by
    unfold Gen.maybeClean at h1
    simp at h1
    exact h1.symm
  subst hfs
  rw [exBoth_loads] at h2
  cases h2
  obtain ⟨conv, k, τ, k1, k2, _, k3⟩ := h3 (by decide) _ (List.mem_cons_of_mem _ (List.mem_cons_self ..)) (.inl rfl) (exShared_convert _) exW exW_types
  refine ⟨stms, fs', conv, k, τ, hm, hg, k1, k2, k3.2 ?_⟩
  intro name root p n e q1 q2 _ q4 _
  obtain ⟨_, q1⟩ := exSuite_tree q1
  cases q1
  have hall : ∀ x ∈ preorder [] exShared, ∀ e ∈ x.2.event, ∃ i, e.value = .int i := by
    intro x hx e he
    have hall : ∀ x ∈ preorder [] exShared, ∀ e ∈ x.2.event, (match e.value with | .int _ => true | _ => false) = true := by decide
    have := hall x hx e he
    cases hv : e.value with
    | int i => exact ⟨i, rfl⟩
    | none => rw [hv] at this; cases this
    | enum s => rw [hv] at this; cases this
  obtain ⟨i, hi⟩ := hall (p, n) (mem_preorder.2 ⟨p, by simp, q2⟩) e q4
  rw [hi]
  rfl

/-- The configuration of ROS with no types -/
def exRos : CppConfig.Config := ⟨.ros, [], [], true, none⟩

theorem exRos_convert : ConvertNames asciiUnicode exRos (ChannelOf ⟨exClashTypes, [(c!"GoMsg", exClash)]⟩) := by
  refine ⟨?_, ?_, by simp [exRos], by simp [exRos]⟩
  · intro ch h
    rw [exClash_channels h]
    unfold WordName
    decide
  · intro x y hx hy
    rw [exClash_channels hx, exClash_channels hy]
    decide

/-- The type that convert.h has by default for values in ROS -/
def exText : CType := ⟨false, [c!"std_msgs", c!"String"], []⟩

theorem exRos_types : ChannelTypes asciiUnicode exRos (ChannelOf ⟨exClashTypes, [(c!"GoMsg", exClash)]⟩)
    (fun ch t => GoMap.get? exClashTypes ch = some (some t)) (fun _ => exText) := by
  have hno : ∀ ch, configuredType exRos ch = none := fun ch => rfl
  refine ⟨fun ch t _ _ _ => rfl, fun ch ty _ h => ?_, fun ch ty _ h => ?_, fun _ ch _ h => ?_⟩
  · rw [hno] at h; cases h
  · rw [hno] at h; cases h
  · obtain ⟨ty, h, _⟩ := h
    rw [hno] at h; cases h

/-- C118 as it stands does not hold of the code: a ROS suite of one trace, of one channel that carries a number and for which no type is
configured, whose convert.h returns a text where it declares a number. -/
theorem C118_false : ∃ ts r c T conv k τ, MadeFrom ts r ∧ (∀ nt ∈ ts, NoIds nt.2.root) ∧ ConvertNames asciiUnicode c (ChannelOf r) ∧
    ChannelTypes asciiUnicode c (ChannelOf r) (fun ch t => GoMap.get? r.types ch = some (some t)) T ∧
    render asciiUnicode c!"today" (.convertH c.variant (c.process r.types)) = (conv, .ok ()) ∧ parse (lex conv) = some k ∧
    WordTypes asciiUnicode c.variant (ChannelOf r) T τ ∧ ∃ i ∈ k.map (substItem τ), functionTyped i = false := by
  obtain ⟨ts, h1, h2⟩ := exClash_made
  obtain ⟨conv, k, τ, k1, k2, k3, k4⟩ := C118_typed_partial (date := c!"today") (c := exRos) asciiUnicode_ok (.inr rfl) h1 exRos_convert exRos_types
  refine ⟨ts, _, exRos, _, conv, k, τ, h1, h2, exRos_convert, exRos_types, k1, k2, k3, ?_⟩
  refine Classical.byContradiction fun hn => ?_
  have hall : ∀ i ∈ k.map (substItem τ), functionTyped i = true := by
    intro i hi
    cases hf : functionTyped i with
    | true => rfl
    | false => exact absurd ⟨i, hi, hf⟩ hn
  have := k4.1 hall c!"go" ⟨⟨1⟩, ⟨1⟩⟩ (by decide) (fun h => by
    obtain ⟨ty, h, _⟩ := h
    exact absurd h (by rw [show configuredType exRos c!"go" = none from rfl]; simp))
  rcases this with h | ⟨h, _⟩
  · exact absurd h (by decide)
  · exact absurd h (by decide)

end Rtcg
