import Verif.Props.CppTrace
import Verif.Proofs.CppSuiteTyped

/-
From a suite of test trees to what the generated programs do, by the texts in the output directory.
-/

namespace Rtcg

open Spec Spec.Cpp Program Programs Harness

section

variable {T : TextLayer} {env : Env} {argv : List Str} {path text stms config output : Str} {input : Json} {s : Validate.Suite} {clean : Bool} {fs' : Fs}

/-- What rtcg-make-stms and rtcg-gen have done, when they have succeeded: the machines of the trees, and the programs of those that are good. -/
theorem Spec.Cpp.suite_texts (hU : T.unicode.AsciiOK) (ha : InputArg argv path) (hr : Reads T env path text)
    (hp : Json.parse text = .ok input) (hd : Json.decodeSuite input = .ok s)
    (hs : ∀ name root, (name, some root) ∈ s → Spec.Plain name ∧ NoIds root ∧ AllEvents (fun e => e.channel.name ≠ []) root)
    (hmake : makeStms T env argv = (stms, .ok ()))
    (hgen : gen T { env with stdin := stms } clean output [config] = (fs', .ok ())) :
    ∃ fs cfg vs suite, Gen.maybeClean env.cwd env.fs clean (cleanPath output) = (fs, .ok ()) ∧
      loadConfig T env.cwd fs (cleanPath config) = .ok cfg ∧
      MadeFrom vs suite ∧ (∀ nt ∈ vs, NoIds nt.2.root) ∧ (∀ name t, (name, t) ∈ vs ↔ (name, some t.root) ∈ s) ∧
      ((cfg.cpps.map (·.variant)).Nodup → ∀ c ∈ cfg.cpps, HasText T fs'
        (locate env.cwd output ++ [c.variant.string] ++ [c!"src", c!"convert", c!"convert.h"])
        (CppText.convertText T.unicode c.variant (c.process suite.types))) ∧
      ((cfg.cpps.map (·.variant)).Nodup → ∀ name root, (name, some root) ∈ s → ∀ c ∈ cfg.cpps, (c.variant = .animate ∨ c.variant = .ros) ∧
        ∃ m m₀, (name, m) ∈ suite.tests ∧ Suite.Same root m₀ m ∧
          HasTexts T fs' (locate env.cwd output ++ [c.variant.string]) c suite.types name m ∧
          (GoodTest T.unicode T.date c name m → ∃ P, Generated T.unicode T.date c suite.types name m P ∧
            OnDisk T fs' (locate env.cwd output ++ [c.variant.string]) name P)) := by
  obtain ⟨path2, text2, input2, j2, ha2, hr2, hp2, _, hj2, hw2⟩ := ((C84_make_stms T env argv).2 stms).1 hmake
  have hpath : path2 = path := by
    rcases ha with ⟨_, e1, e2⟩ | ⟨_, e1⟩ <;> rcases ha2 with ⟨_, e3, e4⟩ | ⟨_, e3⟩
    · exact e4.trans e2.symm
    · rw [e1] at e3; simp at e3
    · rw [e1] at e3; simp at e3
    · rw [e1] at e3; simp at e3; exact e3.2.symm
  subst hpath
  rw [← reads_iff] at hr hr2
  rw [hr] at hr2; cases hr2
  rw [hp] at hp2; cases hp2
  have hvs : ∃ vs, Validate.fullSuite s = .ok vs := by
    unfold makeStmsProgram at hj2
    rw [hd] at hj2
    simp only at hj2
    cases hf : Validate.fullSuite s with
    | error e => rw [hf] at hj2; cases hj2
    | ok vs => exact ⟨vs, rfl⟩
  obtain ⟨vs, hvs⟩ := hvs
  have hwfs : GoMap.WF s := Json.decodeMap_wf hd
  obtain ⟨hmap, _⟩ := (C25_fullSuite_iff s hwfs vs).1 hvs
  have hiff : ∀ name t, (name, t) ∈ vs ↔ (name, some t.root) ∈ s := by
    intro name t
    rw [← hmap, List.mem_map]
    constructor
    · intro h; exact ⟨_, h, rfl⟩
    · rintro ⟨⟨k, t'⟩, h1, h2⟩
      simp only [Prod.mk.injEq, Option.some.injEq] at h2
      obtain ⟨rfl, h2⟩ := h2
      cases t; cases t'
      simp only at h2
      subst h2
      exact h1
  have hn : ∀ nt ∈ vs, AllEvents (fun e => e.channel.name ≠ []) nt.2.root := fun nt hnt => (hs _ _ ((hiff _ _).1 hnt)).2.2
  have hno : ∀ nt ∈ vs, NoIds nt.2.root := fun nt hnt => (hs _ _ ((hiff _ _).1 hnt)).2.1
  obtain ⟨_, _, suite, _, hdec, _⟩ := C56_output input j2 s vs hd hvs hj2 hn
  have hmade : MadeFrom vs suite := C73_make_stms input j2 s vs suite hd hvs hj2 hn hdec
  have hb2 := C85_read_back j2 stms [] (C85_programs.2 _ _ hj2).1 hw2
  rw [List.append_nil] at hb2
  have hg : GivenSuite T { env with stdin := stms } [config] config suite :=
    ⟨c!"-", stms, j2, .inl ⟨rfl, rfl⟩, .inl ⟨by decide, rfl⟩, hb2, hdec⟩
  have hplain : PlainNames suite := by
    rintro ⟨k, m'⟩ hk
    obtain ⟨t, ht, _⟩ := madeFrom_machine hmade hk
    exact (hs _ _ ((hiff _ _).1 ht)).1
  obtain ⟨fs, cfg, d1, d2, d3⟩ := C105_generated T { env with stdin := stms } clean output _ config suite fs' hg hplain hgen
  refine ⟨fs, cfg, vs, suite, d1, d2, hmade, hno, hiff, fun hv c hcc => (d3 hv c hcc).2.2.1, fun hv name root hroot c hcc => ?_⟩
  have hvar : c.variant = .animate ∨ c.variant = .ros := by
    obtain ⟨file, raw, _, hs, hcpp, _⟩ := (C93_load T env.cwd fs (cleanPath config) cfg).1 d2
    rw [hcpp] at hcc
    exact ((ConfigSay.says_fits hs).cpps c hcc).variant
  have hmem : (name, (⟨root⟩ : Validate.Test)) ∈ vs := (hiff _ ⟨root⟩).2 hroot
  obtain ⟨m, hm⟩ : ∃ m, (name, m) ∈ suite.tests := by
    obtain ⟨hwf, hval, ⟨b, b', r₀, hb, hty, hsame⟩, w1, w2, w3⟩ := hmade
    obtain ⟨m₀, _, _, h0, _⟩ := suite_machine_conv hwf hval hb hmem
    have h1 : GoMap.WF r₀.tests := by
      unfold GoMap.WF
      rw [(C36_result b b' vs hwf hval r₀ hb).1]
      exact hwf
    have h2 := hsame name
    rw [GoMap.get?_of_mem h1 h0] at h2
    cases h3 : GoMap.get? suite.tests name with
    | none => rw [h3] at h2; cases h2
    | some m => exact ⟨m, GoMap.mem_of_get? h3⟩
  obtain ⟨t, m₀, ht, hsame⟩ := Suite.made_same hmade hno hm
  have hroot' : t.root = root := by
    have h1 := GoMap.get?_of_mem hwfs ((hiff _ _).1 ht)
    rw [GoMap.get?_of_mem hwfs hroot] at h1
    cases h1
    rfl
  rw [hroot'] at hsame
  obtain ⟨f1, f2, _, f4, _⟩ := d3 hv c hcc
  obtain ⟨s, rest, hs, f5⟩ := f4 name m hm
  have hi : Harness.initial m = s.id := by
    unfold Harness.initial Stm.initialState
    rw [hs]
  rw [← hi] at f5
  refine ⟨hvar, m, m₀, hm, hsame, ⟨f2, f1, f5⟩, fun good => ?_⟩
  obtain ⟨p1, p2, p3⟩ := generated hU hvar hmade hno hm good
  exact ⟨_, (p3 _).2 rfl, _, _, _, f2, f1, f5, program_main (Good.ok_env hU hvar) p1⟩

/-- What rtcg-make-stms and rtcg-gen have done, when they have succeeded: the machines of the trees, and the programs of those that are good. -/
theorem Spec.Cpp.suite_programs (hU : T.unicode.AsciiOK) (ha : InputArg argv path) (hr : Reads T env path text)
    (hp : Json.parse text = .ok input) (hd : Json.decodeSuite input = .ok s)
    (hs : ∀ name root, (name, some root) ∈ s → Spec.Plain name ∧ NoIds root ∧ AllEvents (fun e => e.channel.name ≠ []) root)
    (hmake : makeStms T env argv = (stms, .ok ()))
    (hgen : gen T { env with stdin := stms } clean output [config] = (fs', .ok ())) :
    ∃ fs cfg vs suite, Gen.maybeClean env.cwd env.fs clean (cleanPath output) = (fs, .ok ()) ∧
      loadConfig T env.cwd fs (cleanPath config) = .ok cfg ∧
      MadeFrom vs suite ∧ (∀ nt ∈ vs, NoIds nt.2.root) ∧ (∀ name t, (name, t) ∈ vs ↔ (name, some t.root) ∈ s) ∧
      ((cfg.cpps.map (·.variant)).Nodup → ∀ c ∈ cfg.cpps, HasText T fs'
        (locate env.cwd output ++ [c.variant.string] ++ [c!"src", c!"convert", c!"convert.h"])
        (CppText.convertText T.unicode c.variant (c.process suite.types))) ∧
      ((cfg.cpps.map (·.variant)).Nodup → ∀ name root, (name, some root) ∈ s → ∀ c ∈ cfg.cpps, (c.variant = .animate ∨ c.variant = .ros) ∧
        ∃ m m₀, (name, m) ∈ suite.tests ∧ Suite.Same root m₀ m ∧
          (GoodTest T.unicode T.date c name m → ∃ P, Generated T.unicode T.date c suite.types name m P ∧
            OnDisk T fs' (locate env.cwd output ++ [c.variant.string]) name P)) := by
  obtain ⟨fs, cfg, vs, suite, h1, h2, h3, h4, h5, h6, h7⟩ := suite_texts hU ha hr hp hd hs hmake hgen
  refine ⟨fs, cfg, vs, suite, h1, h2, h3, h4, h5, h6, fun hv name root hroot c hcc => ?_⟩
  obtain ⟨g1, m, m₀, g2, g3, _, g4⟩ := h7 hv name root hroot c hcc
  exact ⟨g1, m, m₀, g2, g3, g4⟩

/-- C112: from a suite of trees to what the ROS programs do.  When rtcg-make-stms has succeeded on a suite, and rtcg-gen on what that wrote, with
distinct variants configured, then for every tree whose names can be names in C++ the output directory of the variant ros holds texts that
make a C++ program; whatever callbacks ROS calls in it, it waits for more while its test goes on, and otherwise ends with the exit code of its
status; it is FAIL only after a path of the tree to a node where some test fails; and (if the tree starts with an input, once the start delay
is over) the status, the verdicts reported at the end and the inputs sent are those of the way down the tree that the callbacks lead. -/
theorem C112_ros (hU : T.unicode.AsciiOK) (ha : InputArg argv path) (hr : Reads T env path text)
    (hp : Json.parse text = .ok input) (hd : Json.decodeSuite input = .ok s)
    (hs : ∀ name root, (name, some root) ∈ s → Spec.Plain name ∧ NoIds root ∧ AllEvents (fun e => e.channel.name ≠ []) root)
    (hdate : OneLine T.date)
    (hmake : makeStms T env argv = (stms, .ok ()))
    (hgen : gen T { env with stdin := stms } clean output [config] = (fs', .ok ())) :
    ∃ fs cfg, Gen.maybeClean env.cwd env.fs clean (cleanPath output) = (fs, .ok ()) ∧ loadConfig T env.cwd fs (cleanPath config) = .ok cfg ∧
      ((cfg.cpps.map (·.variant)).Nodup → ∀ c ∈ cfg.cpps, c.variant = .ros → (∀ i ∈ c.includes, OneLine i.src) →
        ∀ name root, (name, some root) ∈ s → Cpp.Plain name → TreeNames T.unicode .ros root →
        ∃ P, OnDisk T fs' (locate env.cwd output ++ [c!"ros"]) name P ∧
          ∀ L, TreeLib L T.unicode .ros root → ∀ xs : List (Callback × List Cpp.Val), (∀ x ∈ xs, TreeCallback root x.1 ∧ ArgsOf L T.unicode .ros x.1 x.2) →
          ∀ argc argv input fuel depth, 6 ≤ depth →
          let cbs := xs.map (·.1)
          let seen := cbs.filter (sees (treeEvents root))
          ∃ st' status, runMain P L fuel depth [argc, argv] input (xs.map eventOf) =
              (if status.isRunning then .wait st' else .ok (.int status.exitCode) st') ∧
            (status = .fail → ∃ p n, nodeAt root p = some n ∧ n.outcome ≠ oFail ∧ Fails n ∧ seenTo root p <+: seen) ∧
            ((RootInput root → StartedIn (treeEvents root) cbs) →
              ∃ p n after, Followed root seen p ∧ nodeAt root p = some n ∧ seen = seenTo root p ++ after ∧ EndsAt n after status ∧
                (Deterministic root → st'.eff.filter (isSend .ros) = (offersTo root p).map (sendEffect L T.unicode .ros)) ∧
                (status.isRunning = false → ∃ (tests : List Str) (before : List Effect), tests.Nodup ∧ (∀ t, t ∈ tests ↔ TestOf root t) ∧
                  st'.eff = before ++ outcomesSaid T.unicode .ros name status (tests.map fun t => (t, (verdictTo root t p).getD oUnset))))) := by
  obtain ⟨fs, cfg, vs, suite, h1, h2, h3, h4, h5, _, h6⟩ := suite_programs hU ha hr hp hd hs hmake hgen
  refine ⟨fs, cfg, h1, h2, fun hv c hcc hcv hinc name root hroot hplain hnames => ?_⟩
  obtain ⟨_, m, m₀, g1, g2, g3⟩ := h6 hv name root hroot c hcc
  have good : GoodTest T.unicode T.date c name m := ⟨Suite.wellNamed hU h3 h4 g1 g2 (by rw [hcv]; exact hnames), hdate, hplain, hinc⟩
  obtain ⟨P, hP, hD⟩ := g3 good
  rw [hcv] at hD
  refine ⟨P, hD, fun L hL xs hx argc argv input fuel depth hd => ?_⟩
  obtain ⟨st', k1, _, _, k4, k5⟩ := C108_ros hU hcv h3 h4 g1 good hP (Suite.provides g2 hL) xs
    (fun x hxx => ⟨Suite.hasCallback g2 (hx x hxx).1, (hx x hxx).2⟩) argc argv input fuel hd
  have hsame := same_run g2.same.1 g2.maps₀ g2.maps g2.same.2.2 (xs.map (·.1))
  unfold Harness.exitCode at k1
  rw [← hsame.status] at k1 k5
  refine ⟨st', _, k1, C68_no_false_alarms root m₀ g2.built _, fun hst => ?_⟩
  obtain ⟨p, n, after, e1, e2, e3, e4, e5, e6⟩ := C111_endings root m₀ g2.built _ hst
  refine ⟨p, n, after, e1, e2, e3, e4, fun hdet => ?_, fun hend => ?_⟩
  · rw [k4, ← hsame.sent, e6 hdet]
  · obtain ⟨before, k6⟩ := k5 hend
    refine ⟨GoSet.values m.tests, before, (madeFrom_machine h3 g1).choose_spec.2.tests, Suite.tests g2, ?_⟩
    rw [k6, Suite.said, ← hsame.status]
    congr 2
    refine List.map_congr_left fun t ht => ?_
    rw [← hsame.verdict t, e5 t (g2.same.2.2.mem_iff.2 ht)]
    rfl

/-- C112: … and for the variant animate, if moreover the tree has no look-alike continuations and no test fails at its root: the program, given
words of any kind (for an output with a value of the type of its channel, which the conversions keep), takes them as the callbacks they mean
to the tree, waits for more exactly while the test goes on, and otherwise ends with exit code 1 exactly if they lead to a node where some
test fails, and else with exit code 0, not having read further; verdicts and inputs are as above. -/
theorem C112_animate (hU : T.unicode.AsciiOK) (ha : InputArg argv path) (hr : Reads T env path text)
    (hp : Json.parse text = .ok input) (hd : Json.decodeSuite input = .ok s)
    (hs : ∀ name root, (name, some root) ∈ s → Spec.Plain name ∧ NoIds root ∧ AllEvents (fun e => e.channel.name ≠ []) root)
    (hdate : OneLine T.date)
    (hmake : makeStms T env argv = (stms, .ok ()))
    (hgen : gen T { env with stdin := stms } clean output [config] = (fs', .ok ())) :
    ∃ fs cfg, Gen.maybeClean env.cwd env.fs clean (cleanPath output) = (fs, .ok ()) ∧ loadConfig T env.cwd fs (cleanPath config) = .ok cfg ∧
      ((cfg.cpps.map (·.variant)).Nodup → ∀ c ∈ cfg.cpps, c.variant = .animate → (∀ i ∈ c.includes, OneLine i.src) →
        ∀ name root, (name, some root) ∈ s → Cpp.Plain name → TreeNames T.unicode .animate root → Deterministic root → ¬ Fails root →
        ∃ P, OnDisk T fs' (locate env.cwd output ++ [c!"animate"]) name P ∧
          ∀ L, TreeLib L T.unicode .animate root → ∀ ws : List (Str × Value),
          (∀ w ∈ ws, ∀ e ∈ treeEvents root, e.channel.kind ≠ kIn → e.channel.name = w.1 →
            (∃ ty, LeastUpper (fun ty => ∃ name root, (name, some root) ∈ s ∧ Carries root w.1 ty) ty ∧ FitsType ty w.2) ∧
            L.val [Rtcg.Cpp.convertFrom T.unicode w.1] [L.val [Rtcg.Cpp.convertTo T.unicode w.1] [valueVal w.2]] = valueVal w.2) →
          let cbs := treeMeanings root [] ws
          let seen := cbs.filter (sees (treeEvents root))
          ∀ rest events fuel depth, (TreeOngoing root cbs → rest = []) → ws.length < fuel → 6 ≤ depth →
          let r := runMain P L fuel depth [] (treeTyping root [] ws ++ rest) events
          ∃ st', (r = .wait st' ∨ ∃ k ∈ [0, 1], r = .ok (.int k) st') ∧
            (r = .wait st' ↔ TreeOngoing root cbs) ∧
            (r = .ok (.int 1) st' ↔ ∃ p n, nodeAt root p = some n ∧ n.outcome ≠ oFail ∧ Fails n ∧ seenTo root p <+: seen) ∧
            st'.input = rest ∧
            ((RootInput root → StartedIn (treeEvents root) cbs) → ∃ p n after status, Followed root seen p ∧ nodeAt root p = some n ∧
              seen = seenTo root p ++ after ∧ EndsAt n after status ∧
              st'.eff.filter (isSend .animate) = (offersTo root p).map (sendEffect L T.unicode .animate) ∧
              (¬ TreeOngoing root cbs → ∃ (tests : List Str) (before : List Effect), tests.Nodup ∧ (∀ t, t ∈ tests ↔ TestOf root t) ∧
                st'.eff = before ++ outcomesSaid T.unicode .animate name status (tests.map fun t => (t, (verdictTo root t p).getD oUnset))))) := by
  obtain ⟨fs, cfg, vs, suite, h1, h2, h3, h4, h5, _, h6⟩ := suite_programs hU ha hr hp hd hs hmake hgen
  refine ⟨fs, cfg, h1, h2, fun hv c hcc hcv hinc name root hroot hplain hnames hdet hnf => ?_⟩
  obtain ⟨_, m, m₀, g1, g2, g3⟩ := h6 hv name root hroot c hcc
  have good : GoodTest T.unicode T.date c name m := ⟨Suite.wellNamed hU h3 h4 g1 g2 (by rw [hcv]; exact hnames), hdate, hplain, hinc⟩
  obtain ⟨P, hP, hD⟩ := g3 good
  rw [hcv] at hD
  refine ⟨P, hD, fun L hL ws hx rest events fuel depth hrest hfuel hd => ?_⟩
  have hcar : ∀ chan ty, SuiteCarries vs chan ty ↔ ∃ name root, (name, some root) ∈ s ∧ Carries root chan ty := by
    intro chan ty
    constructor
    · rintro ⟨⟨k, t⟩, h1, h2⟩
      exact ⟨k, t.root, (h5 _ _).1 h1, h2⟩
    · rintro ⟨k, root, h1, h2⟩
      exact ⟨(k, ⟨root⟩), (h5 _ ⟨root⟩).2 h1, h2⟩
  have htypes : ∀ chan x, suite.types.get? chan = some x →
      ∃ ty, x = some ty ∧ LeastUpper (fun ty => ∃ name root, (name, some root) ∈ s ∧ Carries root chan ty) ty := by
    intro chan x hx
    obtain ⟨hwf, hval, ⟨b, b', r₀, hb, htys, _⟩, _⟩ := h3
    rw [← htys chan] at hx
    obtain ⟨ty, q1, q2⟩ := ((C36_result b b' vs hwf hval r₀ hb).2.2 chan).2 x hx
    refine ⟨ty, q1, fun x hx => q2.1 x ((hcar _ _).2 hx), fun u hu => q2.2 u fun x hx => hu x ((hcar _ _).1 hx)⟩
  have ha := Suite.animate_run g2 hdet hnf hnames.distinct ws
  have htp := Suite.typed_eq g2 hdet hnf hnames.distinct ws
  have hon := (Suite.status_tree g2 hdet hnf (treeMeanings root [] ws)).1
  obtain ⟨st', k1, k2, k3, k4, k5⟩ := C109_animate hU hcv h3 h4 g1 good hP (Suite.provides g2 hL) ws
    (fun w hw s hs x hxs hk hn => by
      obtain ⟨⟨e, he, h1⟩, _⟩ := Suite.sets g2 hs hxs
      rw [← h1] at hk hn ⊢
      obtain ⟨⟨ty, q1, q2⟩, q3⟩ := hx w hw e he hk hn
      rw [← hn] at q1 q3
      refine ⟨⟨ty, ?_, q2⟩, q3⟩
      obtain ⟨ty', r1, r2⟩ := Good.made_types h3 g1 c s hs x hxs
      rw [← h1] at r1 r2
      obtain ⟨ty'', r3, r4⟩ := htypes _ _ r1
      cases r3
      rw [r2, LeastUpper.unique q1 r4]) rest
    (fun hrn => hrest (hon.1 (by rw [← ha]; exact hrn))) events hfuel hd
  have hsame := same_run g2.same.1 g2.maps₀ g2.maps g2.same.2.2 (treeMeanings root [] ws)
  rw [ha, htp] at k1
  rw [ha] at k4 k5
  unfold Harness.exitCode at k1
  rw [← hsame.status] at k1 k5 hon
  rw [← hsame.sent] at k4
  have e2 := C69_fail_iff root m₀ g2.built hdet hnf (treeMeanings root [] ws)
  have e3 : (Harness.run m₀ (treeMeanings root [] ws)).status ≠ .bug := by
    refine Suite.not_bug g2.built hdet hnf ws [] ?_
    show (construct m₀).status ≠ .bug
    have hT := builtFrom_machineOf g2.built
    unfold construct
    split
    · simp
    · rw [initial_id hT]
      obtain ⟨h1, h2⟩ := enter_status hT (p := []) rfl (root_alive hT)
        ⟨(labelled root).id, .waitStart, (GoSet.values m₀.tests).map (fun t => (t, Outcome.unset)), []⟩ rfl
      by_cases hf : Fails (labelled root)
      · rw [h1 hf]; simp
      · rcases h2 hf with h | h <;> rw [h] <;> simp
  refine ⟨st', ?_, ?_, ?_, k3, fun hst => ?_⟩
  · rw [k1]
    revert e3
    cases (Harness.run m₀ (treeMeanings root [] ws)).status <;> simp [Status.isRunning, Status.exitCode]
  · rw [k1, ← hon]
    cases (Harness.run m₀ (treeMeanings root [] ws)).status <;> simp [Status.isRunning, Status.exitCode]
  · rw [k1, ← e2]
    cases (Harness.run m₀ (treeMeanings root [] ws)).status <;> simp [Status.isRunning, Status.exitCode]
  · obtain ⟨p, n, after, f1, f2, f3, f4, f5, f6⟩ := C111_endings root m₀ g2.built _ hst
    refine ⟨p, n, after, _, f1, f2, f3, f4, by rw [k4, f6 hdet], fun hend => ?_⟩
    obtain ⟨before, k6⟩ := k5 (by rw [← Bool.not_eq_true]; exact fun h => hend (hon.1 h))
    refine ⟨GoSet.values m.tests, before, (madeFrom_machine h3 g1).choose_spec.2.tests, Suite.tests g2, ?_⟩
    rw [k6, Suite.said, ← hsame.status]
    congr 2
    refine List.map_congr_left fun t ht => ?_
    rw [← hsame.verdict t, f5 t (g2.same.2.2.mem_iff.2 ht)]
    rfl

/-- C112: … and both programs do succeed on every suite of well-formed trees in which every event has a channel name and a value and the values
of a channel are of one kind, if there is nothing where the output goes and every C++ configuration says how to convert some channel of the
suite and comes with the conversion code. -/
theorem C112_succeeds (T : TextLayer) (env : Env) (argv : List Str) (path text : Str) (config output : Str) (input : Json) (s : Validate.Suite)
    (cfg : GenConfig) (ha : InputArg argv path) (hr : Reads T env path text)
    (hp : Json.parse text = .ok input) (hd : Json.decodeSuite input = .ok s)
    (hs : ∀ name tree, (name, tree) ∈ s → ∃ root, tree = some root ∧ WellFormed root ∧ Spec.Plain name ∧
      AllEvents (fun e => e.channel.name ≠ [] ∧ e.value ≠ .none) root)
    (hty : ¬ ∃ chan, Conflict (fun ty => ∃ name root, (name, some root) ∈ s ∧ Carries root chan ty))
    (hcfg : loadConfig T env.cwd env.fs (cleanPath config) = .ok cfg) (hv : (cfg.cpps.map (·.variant)).Nodup)
    (hempty : EmptyAt env.fs (locate env.cwd output))
    (hsrc : ∀ c ∈ cfg.cpps, ¬ Inside (locate env.cwd output) (locate env.cwd cfg.directory ++ conversionFile c))
    (hconv : ∀ c ∈ cfg.cpps, (∃ ch ∈ c.channels, ∃ name root ty, (name, some root) ∈ s ∧ Carries root ch.name ty) ∧
      (env.fs.file (locate env.cwd cfg.directory ++ conversionFile c)).isSome) :
    ∃ stms fs', makeStms T env argv = (stms, .ok ()) ∧ gen T { env with stdin := stms } false output [config] = (fs', .ok ()) := by
  have hwfs : GoMap.WF s := Json.decodeMap_wf hd
  let vs : GoMap Str Validate.Test := s.map fun kv => (kv.1, ⟨kv.2.getD Node.fail⟩)
  have hmap : vs.map (fun kv => (kv.1, some kv.2.root)) = s := by
    show (s.map _).map _ = s
    rw [List.map_map]
    conv => rhs; rw [← List.map_id s]
    refine List.map_congr_left ?_
    rintro ⟨k, t⟩ hk
    obtain ⟨root, rfl, _⟩ := hs k t hk
    rfl
  have hvs : Validate.fullSuite s = .ok vs := (C25_fullSuite_iff s hwfs vs).2 ⟨hmap, fun k r hk => by
    obtain ⟨root, h1, h2, _⟩ := hs k _ hk
    cases h1
    exact h2⟩
  have hiff : ∀ name t, (name, t) ∈ vs → (name, some t.root) ∈ s := by
    intro name t h
    rw [← hmap]
    exact List.mem_map.2 ⟨_, h, rfl⟩
  have hget : ∀ nt ∈ vs, Spec.Plain nt.1 ∧ AllEvents (fun e => e.channel.name ≠ [] ∧ e.value ≠ .none) nt.2.root := by
    rintro ⟨k, t⟩ ht
    obtain ⟨root, h1, _, h3, h4⟩ := hs k _ (hiff k t ht)
    cases h1
    exact ⟨h3, h4⟩
  have hn : ∀ nt ∈ vs, AllEvents (fun e => e.channel.name ≠ []) nt.2.root := fun nt hnt p n e h1 h2 => ((hget nt hnt).2 p n e h1 h2).1
  have hcar : ∀ chan ty, SuiteCarries vs chan ty ↔ ∃ name root, (name, some root) ∈ s ∧ Carries root chan ty := by
    intro chan ty
    constructor
    · rintro ⟨⟨k, t⟩, h1, h2⟩
      exact ⟨k, t.root, hiff k t h1, h2⟩
    · rintro ⟨k, root, h1, h2⟩
      refine ⟨(k, ⟨root⟩), ?_, h2⟩
      exact List.mem_map.2 ⟨_, h1, rfl⟩
  obtain ⟨j2, hj2⟩ := (C56_writes_iff_partial input s vs hd hvs).2 ⟨by
    rintro ⟨chan, a, b, h1, h2, h3⟩
    exact hty ⟨chan, a, b, (hcar _ _).1 h1, (hcar _ _).1 h2, h3⟩, fun nt hnt p n e h1 h2 => ((hget nt hnt).2 p n e h1 h2).2⟩
  obtain ⟨hn2, stms, hw2⟩ := C85_programs.2 _ _ hj2
  obtain ⟨_, _, suite, _, hdec, _⟩ := C56_output input j2 s vs hd hvs hj2 hn
  have hmade : MadeFrom vs suite := C73_make_stms input j2 s vs suite hd hvs hj2 hn hdec
  have hb2 := C85_read_back j2 stms [] hn2 hw2
  rw [List.append_nil] at hb2
  have hg : GivenJson T { env with stdin := stms } [config] config j2 suite :=
    ⟨c!"-", stms, .inl ⟨rfl, rfl⟩, .inl ⟨by decide, rfl⟩, hb2, hdec⟩
  have hplain : PlainNames suite := by
    rintro ⟨k, m'⟩ hk
    obtain ⟨t, ht, _⟩ := madeFrom_machine hmade hk
    exact (hget _ ht).1
  have hkey : ∀ c ∈ cfg.cpps, needsConversion suite c := by
    intro c hcc
    obtain ⟨⟨ch, hch, name, root, ty, hroot, hcty⟩, _⟩ := hconv c hcc
    refine ⟨ch, hch, ?_⟩
    obtain ⟨hwf, hval, ⟨b, b', r₀, hb, htys, _⟩, _⟩ := hmade
    cases hget : suite.types.get? ch.name with
    | some ty => exact List.mem_map.2 ⟨_, GoMap.mem_of_get? hget, rfl⟩
    | none =>
      rw [← htys ch.name] at hget
      exact absurd ⟨ty, (hcar _ _).2 ⟨name, root, hroot, hcty⟩⟩ (((C36_result b b' vs hwf hval r₀ hb).2.2 ch.name).1.1 hget)
  have hrun : (Gen.run env.cwd env.fs (Gen.ops cfg (cleanPath output) suite)).2 = .ok () := by
    rw [← locate_cleanPath] at hempty hsrc
    exact (C50_succeeds_from_empty_partial env.cwd env.fs cfg (cleanPath output) suite hplain hmade.2.2.2.1 hv hempty
      (fun c hcc _ => hsrc c hcc) _ _ (List.Perm.refl _) (List.Perm.refl _)).2 fun c hcc => ⟨.inl (hkey c hcc), fun _ => (hconv c hcc).2⟩
  have hgen := C73_generation env.cwd env.fs false output cfg vs suite hmade
  simp only [Templates.action, Gen.action, Gen.maybeClean, Bool.not_false, if_true] at hgen
  refine ⟨stms, _, ((C84_make_stms T _ _).2 stms).2 ⟨path, text, input, j2, ha, hr, hp, ⟨s, vs, hd, hvs⟩, hj2, hw2⟩, Prod.ext rfl ?_⟩
  rw [Run.gen_given hg]
  simp only [Gen.maybeClean, Bool.not_false, if_true]
  unfold generate
  simp only [hcfg]
  rw [Templates.runRead_none (Json.makeStms_has hj2), hgen]
  exact hrun

end

/-! ### examples -/

/-- A suite with one tree (that of `exShared`), as JSON. -/
def exSuiteText : Str :=
  c!"{\"x\": {\"tests\": [\"t\", \"u\"], \"next\": [{\"tests\": [\"t\", \"u\"], \"outcome\": \"inc\", \"event\": \"a.in.1\", \"next\": [" ++
  c!"{\"tests\": [\"t\"], \"outcome\": \"pass\", \"event\": \"b.out.2\", \"next\": [{\"tests\": [\"t\"], \"outcome\": \"fail\"}]}," ++
  c!"{\"tests\": [\"u\"], \"outcome\": \"inc\", \"event\": \"b.out.3\", \"next\": [" ++
  c!"{\"tests\": [\"u\"], \"outcome\": \"pass\", \"event\": \"b.out.4\", \"next\": [{\"tests\": [\"u\"], \"outcome\": \"fail\"}]}]}]}]}}"

def exSuite : Validate.Suite := [(c!"x", some exShared)]

set_option maxRecDepth 200000 in
theorem exSuite_parse : ∃ input, Json.parse exSuiteText = .ok input ∧ Json.decodeSuite input = .ok exSuite := ⟨_, by rfl, by rfl⟩

theorem exSuite_tree {name : Str} {tree : Option Node} (h : (name, tree) ∈ exSuite) : name = c!"x" ∧ tree = some exShared := by
  unfold exSuite at h
  simp only [List.mem_singleton, Prod.mk.injEq] at h
  exact h

theorem exShared_events : AllEvents (fun e => e.channel.name ≠ [] ∧ e.value ≠ .none) exShared := by
  intro p n e hn he
  have hall : ∀ x ∈ preorder [] exShared, ∀ e ∈ x.2.event, e.channel.name ≠ [] ∧ e.value ≠ .none := by decide
  exact hall (p, n) (mem_preorder.2 ⟨p, by simp, hn⟩) e he

theorem exShared_wf : WellFormed exShared := by
  have h : Validate.fullSuite exSuite = .ok [(c!"x", ⟨exShared⟩)] := by rfl
  exact ((C25_fullSuite_iff exSuite (by unfold GoMap.WF exSuite; decide) _).1 h).2 c!"x" _ (List.mem_singleton.2 rfl)

theorem exShared_types : ¬ ∃ chan, Conflict (fun ty => ∃ name root, (name, some root) ∈ exSuite ∧ Carries root chan ty) := by
  rintro ⟨chan, a, b, ⟨_, _, h1, p, n, e, h2, _, h3, _, rfl⟩, ⟨_, _, h4, q, k, e', h5, _, h6, _, rfl⟩, h⟩
  obtain ⟨_, h1⟩ := exSuite_tree h1
  obtain ⟨_, h4⟩ := exSuite_tree h4
  cases h1
  cases h4
  have hall : ∀ x ∈ preorder [] exShared, ∀ e ∈ x.2.event, e.value.type.kind = (Value.int 1).type.kind := by decide
  exact h ((hall (p, n) (mem_preorder.2 ⟨p, by simp, h2⟩) e h3).trans (hall (q, k) (mem_preorder.2 ⟨q, by simp, h5⟩) e' h6).symm)

theorem exSuite_succeeds : ∃ stms fs', makeStms exBothT ⟨[], exBothFs, exSuiteText⟩ [c!"rtcg-make-stms"] = (stms, .ok ()) ∧
    gen exBothT ⟨[], exBothFs, stms⟩ false c!"out" [c!"cfg.xml"] = (fs', .ok ()) := by
  obtain ⟨input, h1, h2⟩ := exSuite_parse
  refine C112_succeeds exBothT ⟨[], exBothFs, exSuiteText⟩ [c!"rtcg-make-stms"] c!"-" exSuiteText c!"cfg.xml" c!"out" input exSuite exBothCfg
    (.inl ⟨_, rfl, rfl⟩) (.inl ⟨by decide, rfl⟩) h1 h2 ?_ exShared_types exBoth_loads (by decide) exBoth_empty (by decide) ?_
  · intro name tree h
    obtain ⟨rfl, rfl⟩ := exSuite_tree h
    exact ⟨_, rfl, exShared_wf, by unfold Spec.Plain; decide, exShared_events⟩
  · intro c hcc
    have : ∃ ch ∈ c.channels, ch.name = c!"a" := by
      simp only [exBothCfg, List.mem_cons, List.not_mem_nil, or_false] at hcc
      rcases hcc with rfl | rfl <;> exact ⟨_, List.mem_singleton.2 rfl, rfl⟩
    obtain ⟨ch, h1, h2⟩ := this
    refine ⟨⟨ch, h1, c!"x", exShared, (Value.int 1).type, List.mem_singleton.2 rfl, [0], _, ⟨⟨c!"a", .in_⟩, .int 1⟩, rfl, by decide, rfl, h2.symm, rfl⟩, ?_⟩
    simp only [exBothCfg, List.mem_cons, List.not_mem_nil, or_false] at hcc
    rcases hcc with rfl | rfl <;> decide

theorem exShared_tests {t : Str} : TestOf exShared t → t = c!"t" ∨ t = c!"u" := by
  rintro ⟨p, n, _, hn, ht⟩
  have hall : ∀ x ∈ preorder [] exShared, ∀ t ∈ x.2.tests, t = c!"t" ∨ t = c!"u" := by decide
  exact hall (p, n) (mem_preorder.2 ⟨p, by simp, hn⟩) t ht

theorem exShared_names (v : Variant) : TreeNames asciiUnicode v exShared := by
  refine ⟨?_, ?_, by decide, by decide, fun _ => by decide, ?_⟩
  · unfold WordName Cpp.GoodValue Cpp.Plain; decide
  · intro t ht
    rcases exShared_tests ht with rfl | rfl
    · exact ⟨by unfold Ident; decide, by decide, by decide, fun h => by rcases exShared_tests h with h | h <;> revert h <;> decide⟩
    · exact ⟨by unfold Ident; decide, by decide, by decide, fun h => by rcases exShared_tests h with h | h <;> revert h <;> decide⟩
  · intro e he e' he' g hg
    refine ⟨?_, fun _ => ?_⟩ <;> revert e e' g <;> decide

theorem exShared_lib (v : Variant) : TreeLib exLib asciiUnicode v exShared :=
  ⟨fun _ _ => rfl, fun _ _ => ⟨rfl, rfl⟩, fun _ => ⟨fun _ _ => rfl, fun _ _ => rfl, fun _ _ => ⟨rfl, fun _ => ⟨1, rfl⟩⟩⟩⟩

/-- The way that b.3 and b.4 lead, after the input. -/
theorem exShared_followed : Followed exShared ([Callback.start, .accepted, .output ⟨c!"b", .out⟩ (.int 3), .output ⟨c!"b", .out⟩ (.int 4)].filter
    (sees (treeEvents exShared))) [0, 1, 0] := by
  refine ⟨_, rfl, by decide, by decide, ?_, Or.inl (by decide)⟩
  intro q n hq hne hn
  have hall : ∀ k < 3, ∀ n ∈ nodeAt exShared ([0, 1, 0].take k), ¬ Fails n := by decide
  have hlt : q.length < 3 := by
    rcases Nat.lt_or_ge q.length 3 with h | h
    · exact h
    · exact absurd (hq.eq_of_length (Nat.le_antisymm hq.length_le h)) hne
  refine hall q.length hlt n ?_
  rw [← List.prefix_iff_eq_take.1 hq]
  exact hn

theorem endsAt_fails {n : Node} {after : List Callback} {s : Status} (h : EndsAt n after s) (hf : Fails n) : s = .fail := by
  cases h <;> first | rfl | contradiction

/-- The hypotheses of C112 are met: both programs succeed on this suite, and the program of its tree that is then there, told that the input
was accepted and of outputs b.3 and b.4, ends with exit code 1 and says that test t passed and test u failed. -/
example : ∃ stms fs' P, makeStms exBothT ⟨[], exBothFs, exSuiteText⟩ [c!"rtcg-make-stms"] = (stms, .ok ()) ∧
    gen exBothT ⟨[], exBothFs, stms⟩ false c!"out" [c!"cfg.xml"] = (fs', .ok ()) ∧ OnDisk exBothT fs' [c!"out", c!"ros"] c!"x" P ∧
    ∃ st' tests before, runMain P exLib 0 6 [.int 0, .void] [] ([(.start, [.void]), (.accepted, [.void]), (.output ⟨c!"b", .out⟩ (.int 3), [.int 3]),
        (.output ⟨c!"b", .out⟩ (.int 4), [.int 4])].map eventOf) = .ok (.int 1) st' ∧
      (tests = [c!"t", c!"u"] ∨ tests = [c!"u", c!"t"]) ∧
      st'.eff = before ++ outcomesSaid asciiUnicode .ros c!"x" .fail (tests.map fun t => (t, if t = c!"t" then oPass else oFail)) := by
  obtain ⟨stms, fs', hm, hg⟩ := exSuite_succeeds
  obtain ⟨input, hp, hd⟩ := exSuite_parse
  obtain ⟨fs, cfg, h1, h2, h3⟩ := C112_ros (T := exBothT) (env := ⟨[], exBothFs, exSuiteText⟩) (argv := [c!"rtcg-make-stms"]) (path := c!"-") asciiUnicode_ok
    (.inl ⟨_, rfl, rfl⟩) (.inl ⟨by decide, rfl⟩) hp hd (fun name root h => by
      obtain ⟨h1, h2⟩ := exSuite_tree h
      cases h2
      rw [h1]
      exact ⟨by unfold Spec.Plain; decide, noIds_of _ (by decide), fun p n e h1 h2 => (exShared_events p n e h1 h2).1⟩)
    (by unfold OneLine; decide) hm hg
  have hfs : fs = exBothFs := by
    unfold Gen.maybeClean at h1
    simp at h1
    exact h1.symm
  subst hfs
  rw [exBoth_loads] at h2
  cases h2
  obtain ⟨P, hP, hL⟩ := h3 (by decide) _ (List.mem_cons_self ..) rfl (by unfold OneLine; decide) c!"x" exShared (List.mem_singleton.2 rfl)
    (by unfold Cpp.Plain; decide) (exShared_names _)
  refine ⟨stms, fs', P, hm, hg, hP, ?_⟩
  obtain ⟨st', status, k1, _, k3⟩ := hL exLib (exShared_lib _)
    [(.start, [.void]), (.accepted, [.void]), (.output ⟨c!"b", .out⟩ (.int 3), [.int 3]), (.output ⟨c!"b", .out⟩ (.int 4), [.int 4])] (by
      have hcb : ∀ i ∈ [(3 : Int64), 4], TreeCallback exShared (.output ⟨c!"b", .out⟩ (.int i)) := by
        intro i hi
        refine ⟨by decide, by decide, by simp, ?_⟩
        intro e he hc
        have : ∀ e ∈ treeEvents exShared, e.value.type.isEnum = false := by decide
        show e.value.type.isEnum = _
        rw [this e he]
        revert i
        decide
      intro x hx
      simp only [List.mem_cons, List.not_mem_nil, or_false] at hx
      rcases hx with rfl | rfl | rfl | rfl
      · exact ⟨⟨_, List.mem_singleton.2 rfl, by decide, _, rfl, rfl⟩, rfl⟩
      · exact ⟨by unfold TreeCallback; decide, rfl⟩
      · exact ⟨hcb _ (by decide), _, rfl, rfl⟩
      · exact ⟨hcb _ (by decide), _, rfl, rfl⟩) (.int 0) .void [] 0 6 (Nat.le_refl 6)
  obtain ⟨p, n, after, e1, e2, e3, e4, _, e6⟩ := k3 (fun _ => by decide)
  have hpath := C70_unique exShared _ exShared_built exShared_deterministic _ _ _ exShared_followed e1
  subst hpath
  cases e2
  have hst : status = .fail := by exact endsAt_fails e4 (by decide)
  subst hst
  obtain ⟨tests, before, t1, t2, t3⟩ := e6 rfl
  refine ⟨st', tests, before, k1, ?_, ?_⟩
  · have ht : c!"t" ∈ tests := (t2 _).2 ⟨[0], _, by decide, rfl, by decide⟩
    have hu : c!"u" ∈ tests := (t2 _).2 ⟨[0], _, by decide, rfl, by decide⟩
    have hall : ∀ t ∈ tests, t = c!"t" ∨ t = c!"u" := fun t h => exShared_tests ((t2 t).1 h)
    match tests with
    | [] => cases ht
    | [a] => rw [List.mem_singleton] at ht hu; rw [← ht] at hu; exact absurd hu (by decide)
    | [a, b] =>
      rcases hall a (by simp) with rfl | rfl <;> rcases hall b (by simp) with rfl | rfl <;> simp at t1 ⊢
    | a :: b :: c :: l =>
      exfalso
      rcases hall a (by simp) with rfl | rfl <;> rcases hall b (by simp) with rfl | rfl <;> rcases hall c (by simp) with rfl | rfl <;> simp at t1
  · have hmap : (tests.map fun t => (t, (verdictTo exShared t [0, 1, 0]).getD oUnset)) = tests.map fun t => (t, if t = c!"t" then oPass else oFail) := by
      refine List.map_congr_left fun t h => ?_
      have h1 : (verdictTo exShared c!"t" [0, 1, 0]).getD oUnset = oPass := by decide
      have h2 : (verdictTo exShared c!"u" [0, 1, 0]).getD oUnset = oFail := by decide
      rcases exShared_tests ((t2 t).1 h) with rfl | rfl
      · rw [h1]; rfl
      · rw [h2]; rfl
    rw [hmap] at t3
    exact t3

/-- What is typed in the animation of this tree: ready, accept, and the outputs b.3 and b.4. -/
def exWords : List (Str × Value) := [(c!"ready", .none), (c!"accept", .none), (c!"b", .int 3), (c!"b", .int 4)]

theorem typing_cons {root : Node} {done done' : List Callback} {w : Str × Value} {ws : List (Str × Value)} {cb : Callback} {ts : List Str}
    (ho : TreeOngoing root done) (hm : treeMeaning root done w = some cb) (hd : done ++ [cb] = done') (ht : treeTyping root done' ws = ts) (h : ¬ ∃ c x, cb = .output c x) :
    treeTyping root done (w :: ws) = w.1 :: ts := by
  subst hd ht
  rw [treeTyping, if_pos ho, hm]
  cases cb with
  | output c x => exact absurd ⟨c, x, rfl⟩ h
  | _ => rfl

theorem typing_output {root : Node} {done done' : List Callback} {w : Str × Value} {ws : List (Str × Value)} {c : Channel} {x : Value} {ts : List Str}
    (ho : TreeOngoing root done) (hm : treeMeaning root done w = some (.output c x)) (hd : done ++ [.output c x] = done')
    (ht : treeTyping root done' ws = ts) : treeTyping root done (w :: ws) = w.1 :: x.stringValue :: ts := by
  subst hd ht
  rw [treeTyping, if_pos ho, hm]
  rfl

theorem exShared_typing : treeMeanings exShared [] exWords = [.start, .accepted, .output ⟨c!"b", .out⟩ (.int 3), .output ⟨c!"b", .out⟩ (.int 4)] ∧
    treeTyping exShared [] exWords = [c!"ready", c!"accept", c!"b", c!"3", c!"b", c!"4"] := by
  have key := Suite.status_built exShared_built exShared_deterministic (by decide)
  have hn := fun done => (key done).2.1
  have ha := fun done => (key done).2.2
  have ho := fun done => (key done).1
  have m1 : treeMeaning exShared [] (c!"ready", .none) = some .start := by
    unfold treeMeaning
    rw [if_neg (by decide), if_pos ⟨rfl, (hn _).1 (by decide)⟩]
  have m2 : treeMeaning exShared [.start] (c!"accept", .none) = some .accepted := by
    unfold treeMeaning
    rw [if_neg (by decide), if_neg (fun h => absurd h.1 (by decide)), if_pos ⟨rfl, (ha _).1 (by decide)⟩]
  have m3 : ∀ done i, treeMeaning exShared done (c!"b", .int i) = some (.output ⟨c!"b", .out⟩ (.int i)) := by
    intro done i
    unfold treeMeaning
    have hb : ∀ w : Str, w ≠ c!"b" → ¬ (c!"b", Value.int i).1 = w := fun w h h' => h h'.symm
    rw [if_neg (hb _ (by decide)), if_neg (fun h => hb _ (by decide) h.1), if_neg (fun h => hb _ (by decide) h.1)]
    have : (treeEvents exShared).find? (fun e => e.channel.kind ≠ kIn ∧ e.channel.name = c!"b") = some ⟨⟨c!"b", .out⟩, .int 2⟩ := by decide
    rw [this]
    rfl
  have o1 : TreeOngoing exShared [] := (ho _).1 (by decide)
  have o2 : TreeOngoing exShared [.start] := (ho _).1 (by decide)
  have o3 : TreeOngoing exShared [.start, .accepted] := (ho _).1 (by decide)
  have o4 : TreeOngoing exShared [.start, .accepted, .output ⟨c!"b", .out⟩ (.int 3)] := (ho _).1 (by decide)
  unfold exWords
  constructor
  · simp only [treeMeanings, m1, m2, m3, Option.toList_some, List.nil_append, List.cons_append]
  · exact typing_cons o1 m1 rfl (typing_cons o2 m2 rfl (typing_output o3 (m3 _ _) rfl (typing_output o4 (m3 _ _) rfl rfl)) (by simp)) (by simp)

/-- … and so are those about animations. -/
example : ∃ stms fs' P, makeStms exBothT ⟨[], exBothFs, exSuiteText⟩ [c!"rtcg-make-stms"] = (stms, .ok ()) ∧
    gen exBothT ⟨[], exBothFs, stms⟩ false c!"out" [c!"cfg.xml"] = (fs', .ok ()) ∧ OnDisk exBothT fs' [c!"out", c!"animate"] c!"x" P ∧
    ∃ st', runMain P exLib 5 6 [] [c!"ready", c!"accept", c!"b", c!"3", c!"b", c!"4", c!"more"] [] = .ok (.int 1) st' ∧ st'.input = [c!"more"] := by
  obtain ⟨stms, fs', hm, hg⟩ := exSuite_succeeds
  obtain ⟨input, hp, hd⟩ := exSuite_parse
  obtain ⟨fs, cfg, h1, h2, h3⟩ := C112_animate (T := exBothT) (env := ⟨[], exBothFs, exSuiteText⟩) (argv := [c!"rtcg-make-stms"]) (path := c!"-") asciiUnicode_ok
    (.inl ⟨_, rfl, rfl⟩) (.inl ⟨by decide, rfl⟩) hp hd (fun name root h => by
      obtain ⟨h1, h2⟩ := exSuite_tree h
      cases h2
      rw [h1]
      exact ⟨by unfold Spec.Plain; decide, noIds_of _ (by decide), fun p n e h1 h2 => (exShared_events p n e h1 h2).1⟩)
    (by unfold OneLine; decide) hm hg
  have hfs : fs = exBothFs := by
    unfold Gen.maybeClean at h1
    simp at h1
    exact h1.symm
  subst hfs
  rw [exBoth_loads] at h2
  cases h2
  obtain ⟨P, hP, hL⟩ := h3 (by decide) _ (List.mem_cons_of_mem _ (List.mem_cons_self ..)) rfl (by simp) c!"x" exShared (List.mem_singleton.2 rfl)
    (by unfold Cpp.Plain; decide) (exShared_names _) exShared_deterministic (by decide)
  refine ⟨stms, fs', P, hm, hg, hP, ?_⟩
  obtain ⟨t1, t2⟩ := exShared_typing
  have hx : ∀ w ∈ exWords, ∀ e ∈ treeEvents exShared, e.channel.kind ≠ kIn → e.channel.name = w.1 →
      (∃ ty, LeastUpper (fun ty => ∃ name root, (name, some root) ∈ exSuite ∧ Carries root w.1 ty) ty ∧ FitsType ty w.2) ∧
      exLib.val [Rtcg.Cpp.convertFrom exBothT.unicode w.1] [exLib.val [Rtcg.Cpp.convertTo exBothT.unicode w.1] [valueVal w.2]] = valueVal w.2 := by
    intro w hw e he hk hn
    have hb : w.1 = c!"b" := by
      have : ∀ e ∈ treeEvents exShared, e.channel.kind ≠ kIn → e.channel.name = c!"b" := by decide
      rw [← hn]
      exact this e he hk
    have hfit : FitsType (Value.int 1).type w.2 := by
      unfold exWords at hw
      simp only [List.mem_cons, List.not_mem_nil, or_false] at hw
      rcases hw with rfl | rfl | rfl | rfl
      · exact absurd hb (by decide)
      · exact absurd hb (by decide)
      · exact .inr ⟨by decide, by decide⟩
      · exact .inr ⟨by decide, by decide⟩
    refine ⟨⟨(Value.int 1).type, ⟨?_, ?_⟩, hfit⟩, rfl⟩
    · rintro ty ⟨name, root, h1, p, n, e, h2, _, h3, h4, rfl⟩
      obtain ⟨_, h1⟩ := exSuite_tree h1
      cases h1
      have hall : ∀ x ∈ preorder [] exShared, ∀ e ∈ x.2.event, e.value.type = (Value.int 1).type := by decide
      rw [hall (p, n) (mem_preorder.2 ⟨p, by simp, h2⟩) e h3]
      exact .inl rfl
    · intro u hu
      exact hu _ ⟨c!"x", exShared, List.mem_singleton.2 rfl, [0, 0], _, ⟨⟨c!"b", .out⟩, .int 2⟩, rfl, by decide, rfl, hb.symm, by decide⟩
  have hfail : ∃ p n, nodeAt exShared p = some n ∧ n.outcome ≠ oFail ∧ Fails n ∧
      seenTo exShared p <+: (treeMeanings exShared [] exWords).filter (sees (treeEvents exShared)) := by
    refine ⟨[0, 1, 0], _, rfl, by decide, by decide, ?_⟩
    rw [t1]
    decide
  obtain ⟨st', _, k2, k3, k4, _⟩ := hL exLib (exShared_lib _) exWords hx [c!"more"] [] 5 6 (fun ho => by
    have hr := (Suite.status_built exShared_built exShared_deterministic (by decide) _).1.2 ho
    rw [t1] at hr
    exact absurd hr (by decide)) (by decide) (Nat.le_refl 6)
  have := k3.2 hfail
  rw [t2] at this
  exact ⟨st', this, k4⟩

end Rtcg
