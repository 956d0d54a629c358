import Verif.Props.CppConvert

/-
From traces and trees to what the generated programs with convert.h do, by the texts in the output directory.
-/

namespace Rtcg

open Spec Spec.Cpp Program Programs Harness Tmpl

/-- The texts of convert.h, rtcg.h, rtcg.cpp and the main.cpp of a test, as they are below a directory, make a program. -/
def Spec.Cpp.OnDiskWhole (T : TextLayer) (fs : Fs) (dir : Loc) (name : Str) (P : Prog) : Prop :=
  ∃ conv h cpp main, HasText T fs (dir ++ [c!"src", c!"convert", c!"convert.h"]) conv ∧
    HasText T fs (dir ++ [c!"src", c!"rtcg", c!"rtcg.h"]) h ∧ HasText T fs (dir ++ [c!"src", c!"rtcg", c!"rtcg.cpp"]) cpp ∧
    HasText T fs (dir ++ [c!"src", name, c!"src", c!"main.cpp"]) main ∧ program [conv, h, cpp, main] = some P

namespace Spec.Cpp.Whole

theorem hasText_fun {T : TextLayer} {fs : Fs} {a : Loc} {x y : Str} (h : HasText T fs a x) (h' : HasText T fs a y) : x = y := by
  obtain ⟨f, h1, rfl⟩ := h
  obtain ⟨g, h2, rfl⟩ := h'
  rw [h1] at h2
  cases h2
  rfl

theorem onDisk_fun {T : TextLayer} {fs : Fs} {dir : Loc} {name : Str} {P Q : Prog} (h : OnDisk T fs dir name P) (h' : OnDisk T fs dir name Q) :
    P = Q := by
  obtain ⟨_, _, _, a1, a2, a3, a4⟩ := h
  obtain ⟨_, _, _, b1, b2, b3, b4⟩ := h'
  rw [hasText_fun a1 b1, hasText_fun a2 b2, hasText_fun a3 b3, b4] at a4
  exact (Option.some.inj a4).symm

theorem parse_of {a : Str} {l : List Str} {P : Prog} (h : program (a :: l) = some P) : ∃ i Q, parse (lex a) = some i ∧ program l = some Q ∧
    P = facts [] i ++ Q := by
  unfold program at h
  rw [List.mapM_cons] at h
  cases hp : parse (lex a) with
  | none => rw [hp] at h; cases h
  | some i =>
  rw [hp] at h
  cases hl : l.mapM (fun t => parse (lex t)) with
  | none => rw [hl] at h; cases h
  | some is =>
  rw [hl] at h
  cases h
  exact ⟨i, _, rfl, by unfold program; rw [hl]; rfl, rfl⟩

theorem program_cons {a : Str} {l : List Str} {i : List Item} {P : Prog} (h1 : parse (lex a) = some i) (h2 : program l = some P) :
    program (a :: l) = some (facts [] i ++ P) := by
  unfold program at h2 ⊢
  rw [List.mapM_cons, h1]
  cases hl : l.mapM (fun t => parse (lex t)) with
  | none => rw [hl] at h2; cases h2
  | some is =>
    rw [hl] at h2
    cases h2
    rfl

variable {U : Unicode} {date : Str} {c : CppConfig.Config} {ts : GoMap Str Validate.Test} {r : StmSuite} {name : Str} {m : Stm} {T : TextLayer}
  {fs : Fs} {dir : Loc}

theorem onDiskWhole (hU : U.AsciiOK) (hv : c.variant = .animate ∨ c.variant = .ros) (h : MadeFrom ts r) (gc : ConvertNames U c (ChannelOf r))
    (hd : HasText T fs (dir ++ [c!"src", c!"convert", c!"convert.h"]) (CppText.convertText U c.variant (c.process r.types)))
    {P : Prog} (hP : OnDisk T fs dir name P) :
    OnDiskWhole T fs dir name (facts [] (Tree.convertItems U c.variant (c.process r.types)) ++ P) := by
  obtain ⟨_, _, _, a1, a2, a3, a4⟩ := hP
  exact ⟨_, _, _, _, hd, a1, a2, a3, program_cons (Ok.parse_convert (Good.ok_env hU hv).toEnv (goodConvert hU h gc)) a4⟩

theorem overridden_all (h : MadeFrom ts r) (hall : ∀ ch, ChannelOf r ch → Overridden c ch) :
    facts [] (Tree.convertItems U c.variant (c.process r.types)) = [] := by
  refine Conv.facts_overridden ?_
  rintro ⟨ch, ct⟩ he
  obtain ⟨t, h1, rfl⟩ := (entries h c ch ct).1 he
  exact (overridden_iff c ch (some t)).2 (hall ch ⟨_, h1⟩)

/-! ### libraries -/

theorem returning_takes {L : Lib} {D : Str → Bool} {g : Str} {n : Nat} : (L.returning D).takes [g] n = if D g then decide (n = 1) else L.takes [g] n := by
  show (if among D [g] then decide (n = 1) else _) = _
  rfl

theorem returning_val {L : Lib} {D : Str → Bool} {g : Str} {x : Cpp.Val} : (L.returning D).val [g] [x] = if D g then x else L.val [g] [x] := rfl

section

variable (h : MadeFrom ts r) (gc : ConvertNames U c (ChannelOf r)) (hU : U.AsciiOK)

include h gc hU in
theorem defaults_own {ch : Str} (hc : ChannelOf r ch) :
    (defaults U (c.process r.types) (Rtcg.Cpp.convertTo U ch) = true ↔ ¬ Overridden c ch) ∧
    (defaults U (c.process r.types) (Rtcg.Cpp.convertFrom U ch) = true ↔ ¬ Overridden c ch) := by
  have hne : ∀ a b, Rtcg.Cpp.convertTo U a ≠ Rtcg.Cpp.convertFrom U b := by
    intro a b e
    unfold Rtcg.Cpp.convertTo Rtcg.Cpp.convertFrom Rtcg.Cpp.convert at e
    simp at e
  have hfrom : ∀ a b, Rtcg.Cpp.convertFrom U a = Rtcg.Cpp.convertFrom U b → Rtcg.Cpp.convertTo U a = Rtcg.Cpp.convertTo U b := by
    intro a b e
    unfold Rtcg.Cpp.convertTo Rtcg.Cpp.convert
    unfold Rtcg.Cpp.convertFrom Rtcg.Cpp.convert at e
    rw [List.append_cancel_left e]
  rw [defaults_iff h, defaults_iff h]
  constructor
  · constructor
    · rintro ⟨b, h1, h2, h3 | h3⟩
      · exact absurd h3 (hne _ _)
      · rw [gc.distinct _ _ hc h1 h3]; exact h2
    · intro h2; exact ⟨ch, hc, h2, .inr rfl⟩
  · constructor
    · rintro ⟨b, h1, h2, h3 | h3⟩
      · rw [gc.distinct _ _ hc h1 (hfrom _ _ h3)]; exact h2
      · exact absurd h3.symm (hne _ _)
    · intro h2; exact ⟨ch, hc, h2, .inl rfl⟩

include h gc hU in
theorem send {L : Lib} {x : Channel × Value} (hc : ChannelOf r x.1.name) :
    sendEffect (L.returning (defaults U (c.process r.types))) U .animate x = wholeSend L U c x := by
  unfold sendEffect wholeSend sentFor
  rw [if_neg (by decide), returning_val]
  by_cases ho : Overridden c x.1.name
  · rw [if_neg (fun hd => (defaults_own h gc hU hc).1.1 hd ho), if_pos ho]
  · rw [if_pos ((defaults_own h gc hU hc).1.2 ho), if_neg ho]

include h gc hU in
theorem takes {L : Lib} {chans : Str → Prop} (hL : WholeLib L U c chans) {ch : Str} (hch : chans ch) (hc : ChannelOf r ch) :
    (L.returning (defaults U (c.process r.types))).takes [Rtcg.Cpp.convertTo U ch] 1 = true ∧
    (L.returning (defaults U (c.process r.types))).takes [Rtcg.Cpp.convertFrom U ch] 1 = true := by
  rw [returning_takes, returning_takes]
  by_cases ho : Overridden c ch
  · rw [if_neg (fun hd => (defaults_own h gc hU hc).1.1 hd ho), if_neg (fun hd => (defaults_own h gc hU hc).2.1 hd ho)]
    exact hL.convert ch hch ho
  · rw [if_pos ((defaults_own h gc hU hc).1.2 ho), if_pos ((defaults_own h gc hU hc).2.2 ho)]
    exact ⟨rfl, rfl⟩

include h gc hU in
theorem keeps {L : Lib} {ch : Str} (hc : ChannelOf r ch) {x : Value} (hk : Keeps L U c ch x) :
    (L.returning (defaults U (c.process r.types))).val [Rtcg.Cpp.convertFrom U ch]
      [(L.returning (defaults U (c.process r.types))).val [Rtcg.Cpp.convertTo U ch] [valueVal x]] = valueVal x := by
  rw [returning_val, returning_val]
  by_cases ho : Overridden c ch
  · rw [if_neg (fun hd => (defaults_own h gc hU hc).1.1 hd ho), if_neg (fun hd => (defaults_own h gc hU hc).2.1 hd ho)]
    exact hk ho
  · rw [if_pos ((defaults_own h gc hU hc).1.2 ho), if_pos ((defaults_own h gc hU hc).2.2 ho)]

end

/-! ### results -/

theorem transfer {r r' : Cpp.Res Cpp.Val} {st' : St} {f : St → St} (hok : ∀ x st, r = .ok x st → r' = .ok x (f st))
    (hw : ∀ st, r = .wait st → r' = .wait (f st)) (h : r = .wait st' ∨ ∃ k ∈ [0, 1], r = .ok (.int k) st') :
    (r' = .wait (f st') ∨ ∃ k ∈ [0, 1], r' = .ok (.int k) (f st')) ∧ (r' = .wait (f st') ↔ r = .wait st') ∧
      (r' = .ok (.int 1) (f st') ↔ r = .ok (.int 1) st') := by
  rcases h with h | ⟨k, hk, h⟩
  · rw [hw _ h, h]; simp
  · rw [hok _ _ h, h]
    refine ⟨.inr ⟨k, hk, rfl⟩, by simp, by simp⟩

theorem sends_without (D : Str → Bool) (st : St) : (st.without D).eff.filter (isSend .animate) = st.eff.filter (isSend .animate) := by
  show (st.eff.filter (notCall D)).filter (isSend .animate) = _
  rw [List.filter_filter]
  refine List.filter_congr fun e _ => ?_
  cases e with
  | call q args => rw [show isSend .animate (.call q args) = false from rfl]; rfl
  | out vs => simp [notCall]

theorem said_without (D : Str → Bool) (st : St) {before : List Effect} {name : Str} {s : Status} {os : List (Str × Outcome)}
    (h : st.eff = before ++ outcomesSaid U .animate name s os) :
    (st.without D).eff = before.filter (notCall D) ++ outcomesSaid U .animate name s os := by
  show st.eff.filter (notCall D) = _
  rw [h, List.filter_append]
  congr 1
  refine List.filter_eq_self.2 fun e he => ?_
  unfold outcomesSaid logEff at he
  simp only [List.mem_append, List.mem_cons, List.not_mem_nil, or_false, List.mem_map] at he
  rcases he with (rfl | rfl) | ⟨_, _, rfl⟩ <;> rfl

theorem mem_offer {n : Node} {x : Channel × Value} (h : x ∈ offer n) : ∃ k ∈ n.next, ∃ e, k.event = some e ∧ e.channel = x.1 := by
  unfold offer at h
  split at h
  · cases h
  · unfold inputsOf at h
    obtain ⟨e, he, rfl⟩ := List.mem_map.1 h
    obtain ⟨k, hk, he⟩ := List.mem_flatMap.1 (List.mem_filter.1 he).1
    exact ⟨k, (List.mem_filter.1 hk).1, e, by simpa using he, rfl⟩

theorem mem_offer_tree {n : Node} {x : Channel × Value} (h : x ∈ offer n) : ∃ e ∈ treeEvents n, e.channel = x.1 := by
  obtain ⟨k, hk, e, he, hc⟩ := mem_offer h
  obtain ⟨i, hi, hik⟩ := List.mem_iff_getElem.1 hk
  refine ⟨e, mem_treeEvents.2 ⟨[i], k, ?_, he⟩, hc⟩
  unfold nodeAt
  rw [List.getElem?_eq_getElem hi, hik]
  rfl

theorem mem_offersTo {x : Channel × Value} : ∀ (p : Path) (n : Node), x ∈ offersTo n p → ∃ e ∈ treeEvents n, e.channel = x.1
  | [], n, h => mem_offer_tree (by unfold offersTo at h; exact h)
  | i :: p, n, h => by
    have hoff : x ∈ offer n → ∃ e ∈ treeEvents n, e.channel = x.1 := mem_offer_tree
    unfold offersTo at h
    cases hn : n.next[i]? with
    | none => rw [hn] at h; exact hoff h
    | some k =>
      rw [hn] at h
      rcases List.mem_append.1 h with h | h
      · exact hoff h
      · obtain ⟨e, he, hc⟩ := mem_offersTo p k h
        obtain ⟨q, m, hq, hm⟩ := mem_treeEvents.1 he
        refine ⟨e, mem_treeEvents.2 ⟨i :: q, m, ?_, hm⟩, hc⟩
        unfold nodeAt
        rw [hn]
        exact hq

end Spec.Cpp.Whole

open Spec.Cpp.Whole

section trees

variable {T : TextLayer} {env : Env} {argv : List Str} {path text stms config output : Str} {input : Json} {s : Validate.Suite} {clean : Bool} {fs' : Fs}

/-- The channels of the trees of a suite -/
def Spec.Cpp.TreeChannel (s : Validate.Suite) (ch : Str) : Prop := ∃ name root ty, (name, some root) ∈ s ∧ Carries root ch ty

/-- C115: from a suite of trees to what the animations do, with convert.h.  As C112, but about the program that all four generated files make:
the libraries need have no conversions of channels that no type is configured for; for those values are typed and sent as they are. -/
theorem C115_trees (hU : T.unicode.AsciiOK) (ha : InputArg argv path) (hr : Reads T env path text)
    (hp : Json.parse text = .ok input) (hd : Json.decodeSuite input = .ok s)
    (hs : ∀ name root, (name, some root) ∈ s → Spec.Plain name ∧ NoIds root ∧ AllEvents (fun e => e.channel.name ≠ []) root)
    (hdate : OneLine T.date)
    (hmake : makeStms T env argv = (stms, .ok ()))
    (hgen : gen T { env with stdin := stms } clean output [config] = (fs', .ok ())) :
    ∃ fs cfg, Gen.maybeClean env.cwd env.fs clean (cleanPath output) = (fs, .ok ()) ∧ loadConfig T env.cwd fs (cleanPath config) = .ok cfg ∧
      ((cfg.cpps.map (·.variant)).Nodup → ∀ c ∈ cfg.cpps, c.variant = .animate → ConvertNames T.unicode c (TreeChannel s) →
        ∀ name root, (name, some root) ∈ s → Cpp.Plain name → TreeNames T.unicode .animate root → Deterministic root → ¬ Fails root →
        ∃ P, OnDiskWhole T fs' (locate env.cwd output ++ [c!"animate"]) name P ∧
          ∀ L, WholeLib L T.unicode c (fun ch => ∃ e ∈ treeEvents root, e.channel.name = ch) → ∀ ws : List (Str × Value),
          (∀ w ∈ ws, ∀ e ∈ treeEvents root, e.channel.kind ≠ kIn → e.channel.name = w.1 →
            (∃ ty, LeastUpper (fun ty => ∃ name root, (name, some root) ∈ s ∧ Carries root w.1 ty) ty ∧ FitsType ty w.2) ∧
            Keeps L T.unicode c w.1 w.2) →
          let cbs := treeMeanings root [] ws
          let seen := cbs.filter (sees (treeEvents root))
          ∀ rest events fuel depth, (TreeOngoing root cbs → rest = []) → ws.length < fuel → 7 ≤ depth →
          let r := runMain P L fuel depth [] (treeTyping root [] ws ++ rest) events
          ∃ st', (r = .wait st' ∨ ∃ k ∈ [0, 1], r = .ok (.int k) st') ∧
            (r = .wait st' ↔ TreeOngoing root cbs) ∧
            (r = .ok (.int 1) st' ↔ ∃ p n, nodeAt root p = some n ∧ n.outcome ≠ oFail ∧ Fails n ∧ seenTo root p <+: seen) ∧
            st'.input = rest ∧
            ((RootInput root → StartedIn (treeEvents root) cbs) → ∃ p n after status, Followed root seen p ∧ nodeAt root p = some n ∧
              seen = seenTo root p ++ after ∧ EndsAt n after status ∧
              st'.eff.filter (isSend .animate) = (offersTo root p).map (wholeSend L T.unicode c) ∧
              (¬ TreeOngoing root cbs → ∃ (tests : List Str) (before : List Effect), tests.Nodup ∧ (∀ t, t ∈ tests ↔ TestOf root t) ∧
                st'.eff = before ++ outcomesSaid T.unicode .animate name status (tests.map fun t => (t, (verdictTo root t p).getD oUnset))))) := by
  obtain ⟨fs, cfg, vs, suite, h1, h2, h3, h4, h5, h7, h6⟩ := suite_programs hU ha hr hp hd hs hmake hgen
  obtain ⟨fs₂, cfg₂, i1, i2, i3⟩ := C112_animate hU ha hr hp hd hs hdate hmake hgen
  rw [h1] at i1
  cases i1
  rw [h2] at i2
  cases i2
  refine ⟨fs, cfg, h1, h2, fun hv c hcc hcv gs name root hroot hplain hnames hdet hnf => ?_⟩
  obtain ⟨_, m, m₀, g1, g2, g3⟩ := h6 hv name root hroot c hcc
  have good : GoodTest T.unicode T.date c name m := ⟨Suite.wellNamed hU h3 h4 g1 g2 (by rw [hcv]; exact hnames), hdate, hplain, gs.includes⟩
  have hchan : ∀ ch, ChannelOf suite ch ↔ TreeChannel s ch := by
    intro ch
    have ht := made_typesAre h3 ch
    have hcar : (∃ ty, SuiteCarries vs ch ty) ↔ TreeChannel s ch := by
      constructor
      · rintro ⟨ty, ⟨k, t⟩, q1, q2⟩
        exact ⟨k, t.root, ty, (h5 _ _).1 q1, q2⟩
      · rintro ⟨k, root, ty, q1, q2⟩
        exact ⟨ty, (k, ⟨root⟩), (h5 _ ⟨root⟩).2 q1, q2⟩
    rw [← hcar]
    constructor
    · rintro ⟨t, h⟩
      refine Classical.byContradiction fun hn => ?_
      rw [ht.1.2 hn] at h
      cases h
    · intro h
      cases hg : GoMap.get? suite.types ch with
      | none => exact absurd h (ht.1.1 hg)
      | some t => exact ⟨t, hg⟩
  have gc : ConvertNames T.unicode c (ChannelOf suite) :=
    ⟨fun ch h => gs.words ch ((hchan ch).1 h), fun a b h1 h2 => gs.distinct a b ((hchan a).1 h1) ((hchan b).1 h2), gs.includes, gs.types⟩
  have hown : ∀ e ∈ treeEvents root, ChannelOf suite e.channel.name := by
    intro e he
    obtain ⟨st, hst, x, hx, hc⟩ := (Suite.uses g2).2 ⟨e, he, rfl⟩
    obtain ⟨ty, q1, _⟩ := Good.made_types h3 g1 c st hst x hx
    rw [hc] at q1
    exact ⟨_, q1⟩
  obtain ⟨P₀, hP₀, hD₀⟩ := g3 good
  obtain ⟨P, hD, hrun⟩ := i3 hv c hcc hcv gs.includes name root hroot hplain hnames hdet hnf
  rw [hcv] at hD₀
  have hPP := onDisk_fun hD hD₀
  subst hPP
  have hx := h7 hv c hcc
  rw [show c.variant.string = c!"animate" by rw [hcv]; rfl] at hx
  refine ⟨_, onDiskWhole hU (.inl hcv) h3 gc hx hD, fun L hL ws hws rest events fuel depth hrest hfuel hdepth => ?_⟩
  have hPsrc := ((generated hU (.inl hcv) h3 h4 g1 good).2.2 P).1 hP₀
  have hadds := Conv.adds ⟨T.unicode, c.variant, name, m, c.process suite.types⟩ (c.process suite.types)
  rw [← hPsrc] at hadds
  obtain ⟨d, rfl⟩ : ∃ d, depth = d + 1 := ⟨depth - 1, by omega⟩
  obtain ⟨st', k1, k2, k3, k4, k5⟩ := hrun (L.returning (defaults T.unicode (c.process suite.types)))
    ⟨hL.std, fun e he => takes h3 gc hU hL ⟨e, he, rfl⟩ (hown e he), fun h => absurd h (by decide)⟩ ws
    (fun w hw e he hk hn => by
      obtain ⟨q1, q2⟩ := hws w hw e he hk hn
      exact ⟨q1, keeps h3 gc hU (by rw [← hn]; exact hown e he) q2⟩) rest events fuel d hrest hfuel (by omega)
  rw [hcv]
  obtain ⟨t1, t2, t3⟩ := transfer (f := fun st => st.without (defaults T.unicode (c.process suite.types)))
    (fun x st hr => Conv.runMain_ok hadds hr) (fun st hr => Conv.runMain_wait hadds hr) k1
  refine ⟨_, t1, t2.trans k2, t3.trans k3, k4, fun hst => ?_⟩
  obtain ⟨p, n, after, status, e1, e2, e3, e4, e5, e6⟩ := k5 hst
  refine ⟨p, n, after, status, e1, e2, e3, e4, ?_, fun hno => ?_⟩
  · rw [sends_without, e5]
    refine List.map_congr_left fun x hx => ?_
    obtain ⟨e, he, hc⟩ := mem_offersTo p root hx
    exact send h3 gc hU (by rw [← hc]; exact hown e he)
  · obtain ⟨tests, before, f1, f2, f3⟩ := e6 hno
    exact ⟨tests, _, f1, f2, said_without _ st' f3⟩

/-- C115: … and if types are configured for all channels, the program that all four files make is that which C112 is about, in both variants. -/
theorem C115_trees_configured (hU : T.unicode.AsciiOK) (ha : InputArg argv path) (hr : Reads T env path text)
    (hp : Json.parse text = .ok input) (hd : Json.decodeSuite input = .ok s)
    (hs : ∀ name root, (name, some root) ∈ s → Spec.Plain name ∧ NoIds root ∧ AllEvents (fun e => e.channel.name ≠ []) root)
    (hmake : makeStms T env argv = (stms, .ok ()))
    (hgen : gen T { env with stdin := stms } clean output [config] = (fs', .ok ())) :
    ∃ fs cfg, Gen.maybeClean env.cwd env.fs clean (cleanPath output) = (fs, .ok ()) ∧ loadConfig T env.cwd fs (cleanPath config) = .ok cfg ∧
      ((cfg.cpps.map (·.variant)).Nodup → ∀ c ∈ cfg.cpps, ConvertNames T.unicode c (TreeChannel s) →
        (∀ ch, TreeChannel s ch → Overridden c ch) →
        ∀ name P, OnDisk T fs' (locate env.cwd output ++ [c.variant.string]) name P →
          OnDiskWhole T fs' (locate env.cwd output ++ [c.variant.string]) name P) := by
  obtain ⟨fs, cfg, vs, suite, h1, h2, h3, h4, h5, h7, h6⟩ := suite_programs hU ha hr hp hd hs hmake hgen
  refine ⟨fs, cfg, h1, h2, fun hv c hcc gs hall name P hP => ?_⟩
  have hchan : ∀ ch, ChannelOf suite ch → TreeChannel s ch := by
    rintro ch ⟨t, h⟩
    obtain ⟨ty, ⟨k, t⟩, q1, q2⟩ : ∃ ty, SuiteCarries vs ch ty := by
      refine Classical.byContradiction fun hn => ?_
      rw [(made_typesAre h3 ch).1.2 hn] at h
      cases h
    exact ⟨k, t.root, ty, (h5 _ _).1 q1, q2⟩
  have gc : ConvertNames T.unicode c (ChannelOf suite) :=
    ⟨fun ch h => gs.words ch (hchan ch h), fun a b h1 h2 => gs.distinct a b (hchan a h1) (hchan b h2), gs.includes, gs.types⟩
  have hvar : c.variant = .animate ∨ c.variant = .ros := by
    obtain ⟨file, raw, _, hs, hcpp, _⟩ := (C93_load T env.cwd fs (cleanPath config) cfg).1 h2
    rw [hcpp] at hcc
    exact ((ConfigSay.says_fits hs).cpps c hcc).variant
  have := onDiskWhole hU hvar h3 gc (h7 hv c hcc) hP
  rw [overridden_all h3 (fun ch h => hall ch (hchan ch h))] at this
  exact this

end trees

section traces

variable {T : TextLayer} {env : Env} {config trace file : Str} {traces : List Forbidden} {fs' : Fs}

/-- The channels of some traces -/
def Spec.Cpp.TraceChannel (traces : List Forbidden) (ch : Str) : Prop := ∃ f ∈ traces, ∃ e ∈ eventsOf f, e.channel.name = ch

/-- C115: from a file of forbidden traces to what the animations do, with convert.h.  As C110, but about the program that all four generated
files make: the libraries need have no conversions of channels that no type is configured for; for those values are typed and sent as they
are. -/
theorem C115_traces (hU : T.unicode.AsciiOK) (hc : config.head? ≠ some '-') (hr : Reads T env trace file)
    (h : Forbidden.read file = some (.ok traces))
    (hev : ∀ f ∈ traces, ∀ e ∈ eventsOf f, e.channel.name ≠ [] ∧ e.value ≠ .none)
    (hty : ¬ ∃ chan, Conflict (fun ty => ∃ f ∈ traces, TraceCarries f chan ty))
    (hpl : ∀ f ∈ traces, f.name = [] ∨ Spec.Plain f.name) (hdate : OneLine T.date)
    (hrun : Program.script T env [config, trace] = (fs', 0)) :
    ∃ cfg named, loadConfig T env.cwd env.fs (cleanPath config) = .ok cfg ∧ Forbidden.nameAll traces = some named ∧
      ((cfg.cpps.map (·.variant)).Nodup → ∀ c ∈ cfg.cpps, c.variant = .animate → ConvertNames T.unicode c (TraceChannel traces) →
        ∀ name f, (name, f) ∈ named → TraceNames T.unicode .animate f name →
        ∃ P, OnDiskWhole T fs' (locate env.cwd c!"out" ++ [c!"animate"]) name P ∧
          ∀ L, WholeLib L T.unicode c (fun ch => ∃ e ∈ eventsOf f, e.channel.name = ch) → ∀ ws : List (Str × Value),
          (∀ w ∈ ws, ∀ e ∈ eventsOf f, e.channel.kind ≠ kIn → e.channel.name = w.1 →
            (∃ ty, LeastUpper (fun ty => ∃ f ∈ traces, TraceCarries f w.1 ty) ty ∧ FitsType ty w.2) ∧ Keeps L T.unicode c w.1 w.2) →
          let cbs := meanings f [] ws
          let seen := cbs.filter (counts f)
          ∀ rest events fuel depth, (Ongoing f cbs → rest = []) → ws.length < fuel → 7 ≤ depth →
          let r := runMain P L fuel depth [] (typing f [] ws ++ rest) events
          ∃ st', (r = .wait st' ∨ ∃ k ∈ [0, 1], r = .ok (.int k) st') ∧
            (r = .wait st' ↔ Ongoing f cbs) ∧
            (r = .ok (.int 1) st' ↔ Spec.script f <+: seen) ∧
            st'.input = rest ∧
            ((StartsWithInput f → Started f cbs) → st'.eff.filter (isSend .animate) =
              (inputsOf ((eventsOf f).take (progress (Spec.script f) seen + 1))).map (wholeSend L T.unicode c))) := by
  obtain ⟨cfg, named, ts, suite, h1, h2, h3, h4, h5, h7, h6⟩ := script_programs hU hc hr h hev hty hpl hrun
  obtain ⟨cfg₂, named₂, i1, i2, i3⟩ := C110_animate hU hc hr h hev hty hpl hdate hrun
  rw [h1] at i1
  cases i1
  rw [h2] at i2
  cases i2
  refine ⟨cfg, named, h1, h2, fun hv c hcc hcv gs name f hf hnames => ?_⟩
  obtain ⟨_, m, m₀, g1, g2, g3, _, g6⟩ := h6 hv name f hf c hcc
  have good : GoodTest T.unicode T.date c name m := Trace.good hU h3 h4 g1 g2 g3 (by rw [hcv]; exact hnames) hdate gs.includes
  have hchan : ∀ ch, ChannelOf suite ch → TraceChannel traces ch := by
    rintro ch ⟨t, h⟩
    obtain ⟨ty, f, q1, e, q2, q3, _⟩ : ∃ ty, ∃ f ∈ traces, TraceCarries f ch ty := by
      refine Classical.byContradiction fun hn => ?_
      rw [(h5 ch).1.2 hn] at h
      cases h
    exact ⟨f, q1, e, q2, q3⟩
  have gc : ConvertNames T.unicode c (ChannelOf suite) :=
    ⟨fun ch h => gs.words ch (hchan ch h), fun a b h1 h2 => gs.distinct a b (hchan a h1) (hchan b h2), gs.includes, gs.types⟩
  have hown : ∀ e ∈ eventsOf f, ChannelOf suite e.channel.name := by
    intro e he
    obtain ⟨st, hst, x, hx, hc⟩ := (Trace.uses g2).2 ⟨e, he, rfl⟩
    obtain ⟨ty, q1, _⟩ := Good.made_types h3 g1 c st hst x hx
    rw [hc] at q1
    exact ⟨_, q1⟩
  obtain ⟨P₀, hP₀, hD₀⟩ := g6 good
  obtain ⟨P, hD, hr⟩ := i3 hv c hcc hcv gs.includes name f hf hnames
  rw [hcv] at hD₀
  have hPP := onDisk_fun hD hD₀
  subst hPP
  have hx := h7 hv c hcc
  rw [show c.variant.string = c!"animate" by rw [hcv]; rfl] at hx
  refine ⟨_, onDiskWhole hU (.inl hcv) h3 gc hx hD, fun L hL ws hws rest events fuel depth hrest hfuel hdepth => ?_⟩
  have hPsrc := ((generated hU (.inl hcv) h3 h4 g1 good).2.2 P).1 hP₀
  have hadds := Conv.adds ⟨T.unicode, c.variant, name, m, c.process suite.types⟩ (c.process suite.types)
  rw [← hPsrc] at hadds
  obtain ⟨d, rfl⟩ : ∃ d, depth = d + 1 := ⟨depth - 1, by omega⟩
  obtain ⟨st', k1, k2, k3, k4, k5⟩ := hr (L.returning (defaults T.unicode (c.process suite.types)))
    ⟨hL.std, fun e he => takes h3 gc hU hL ⟨e, he, rfl⟩ (hown e he), fun h => absurd h (by decide)⟩ ws
    (fun w hw e he hk hn => by
      obtain ⟨q1, q2⟩ := hws w hw e he hk hn
      exact ⟨q1, keeps h3 gc hU (by rw [← hn]; exact hown e he) q2⟩) rest events fuel d hrest hfuel (by omega)
  rw [hcv]
  obtain ⟨t1, t2, t3⟩ := transfer (f := fun st => st.without (defaults T.unicode (c.process suite.types)))
    (fun x st hr => Conv.runMain_ok hadds hr) (fun st hr => Conv.runMain_wait hadds hr) k1
  refine ⟨_, t1, t2.trans k2, t3.trans k3, k4, fun hst => ?_⟩
  rw [sends_without, k5 hst]
  refine List.map_congr_left fun x hx => ?_
  unfold inputsOf at hx
  obtain ⟨e, he, rfl⟩ := List.mem_map.1 hx
  exact send h3 gc hU (hown e (List.mem_of_mem_take (List.mem_filter.1 he).1))

/-- C115: … and if types are configured for all channels, the program that all four files make is that which C110 is about, in both variants. -/
theorem C115_traces_configured (hU : T.unicode.AsciiOK) (hc : config.head? ≠ some '-') (hr : Reads T env trace file)
    (h : Forbidden.read file = some (.ok traces))
    (hev : ∀ f ∈ traces, ∀ e ∈ eventsOf f, e.channel.name ≠ [] ∧ e.value ≠ .none)
    (hty : ¬ ∃ chan, Conflict (fun ty => ∃ f ∈ traces, TraceCarries f chan ty))
    (hpl : ∀ f ∈ traces, f.name = [] ∨ Spec.Plain f.name)
    (hrun : Program.script T env [config, trace] = (fs', 0)) :
    ∃ cfg, loadConfig T env.cwd env.fs (cleanPath config) = .ok cfg ∧
      ((cfg.cpps.map (·.variant)).Nodup → ∀ c ∈ cfg.cpps, ConvertNames T.unicode c (TraceChannel traces) →
        (∀ ch, TraceChannel traces ch → Overridden c ch) →
        ∀ name P, OnDisk T fs' (locate env.cwd c!"out" ++ [c.variant.string]) name P →
          OnDiskWhole T fs' (locate env.cwd c!"out" ++ [c.variant.string]) name P) := by
  obtain ⟨cfg, named, ts, suite, h1, h2, h3, h4, h5, h7, h6⟩ := script_programs hU hc hr h hev hty hpl hrun
  refine ⟨cfg, h1, fun hv c hcc gs hall name P hP => ?_⟩
  have hchan : ∀ ch, ChannelOf suite ch → TraceChannel traces ch := by
    rintro ch ⟨t, h⟩
    obtain ⟨ty, f, q1, e, q2, q3, _⟩ : ∃ ty, ∃ f ∈ traces, TraceCarries f ch ty := by
      refine Classical.byContradiction fun hn => ?_
      rw [(h5 ch).1.2 hn] at h
      cases h
    exact ⟨f, q1, e, q2, q3⟩
  have gc : ConvertNames T.unicode c (ChannelOf suite) :=
    ⟨fun ch h => gs.words ch (hchan ch h), fun a b h1 h2 => gs.distinct a b (hchan a h1) (hchan b h2), gs.includes, gs.types⟩
  have hvar : c.variant = .animate ∨ c.variant = .ros := by
    obtain ⟨file, raw, _, hs, hcpp, _⟩ := (C93_load T env.cwd env.fs (cleanPath config) cfg).1 h1
    rw [hcpp] at hcc
    exact ((ConfigSay.says_fits hs).cpps c hcc).variant
  have := onDiskWhole hU hvar h3 gc (h7 hv c hcc) hP
  rw [overridden_all h3 (fun ch h => hall ch (hchan ch h))] at this
  exact this

end traces

/-! ### examples -/

/-- Libraries that know no conversion of b, and a conversion of a that adds 1. -/
def exNoB : Lib :=
  ⟨fun _ => true, fun q _ => q ∉ [[c!"toB"], [c!"fromB"]], fun q args =>
    if q = [c!"toA"] then (match args with | [.int n] => .int (n + 1) | _ => .void) else .void, fun _ => 0⟩

theorem exBoth_convert (v : Variant) : ConvertNames asciiUnicode ⟨v, [], [⟨c!"a", c!"Msg"⟩], true, none⟩ (TraceChannel exTraces) := by
  have hall : ∀ f ∈ exTraces, ∀ e ∈ eventsOf f, e.channel.name = c!"a" ∨ e.channel.name = c!"b" := by decide
  refine ⟨?_, ?_, by simp, ?_⟩
  · rintro _ ⟨f, hf, e, he, rfl⟩
    rcases hall f hf e he with h | h <;> rw [h] <;> unfold WordName <;> decide
  · rintro _ _ ⟨f, hf, e, he, rfl⟩ ⟨f', hf', e', he', rfl⟩
    rcases hall f hf e he with h | h <;> rcases hall f' hf' e' he' with h' | h' <;> rw [h, h'] <;> decide
  · intro x hx
    rw [List.mem_singleton.1 hx]
    unfold OneLine
    decide

/-- The hypotheses of C115 about traces are met.  A type is configured for the channel a, and none for b; with libraries that have no
conversions of b, the animation sends what the conversion of a gives, takes the value of b as it is typed, and fails at the end of the
trace. -/
example : ∃ fs' P, Program.script exBothT ⟨[], exBothFs, []⟩ [c!"cfg.xml", c!"traces.csv"] = (fs', 0) ∧
    OnDiskWhole exBothT fs' [c!"out", c!"animate"] c!"x" P ∧
    ∃ st', runMain P exNoB 6 7 [] [c!"accept", c!"ready", c!"accept", c!"b", c!"ok", c!"more"] [] = .ok (.int 1) st' ∧ st'.input = [c!"more"] ∧
      st'.eff.filter (isSend .animate) = [.out [.glob [c!"std", c!"cerr"], .str c!"[info] ",
        .str c!"(Actual value received by SUT on a after conversion: ", .int 2, .str c!")", .glob [c!"std", c!"endl"]]] := by
  obtain ⟨fs', hrun⟩ := exBoth_succeeds
  obtain ⟨cfg, named, h1, h2, h3⟩ := C115_traces (T := exBothT) asciiUnicode_ok (by decide) exBoth_reads exFile_read exTraces_events exTraces_types
    (by decide) (by unfold OneLine; decide) hrun
  rw [exBoth_loads] at h1
  cases h1
  have hn : Forbidden.nameAll exTraces = some [(c!"x", exTraces[0]), (c!"test0", exTraces[1])] := by decide +kernel
  rw [hn] at h2
  cases h2
  obtain ⟨P, hP, hL⟩ := h3 (by decide) _ (List.mem_cons_of_mem _ (List.mem_cons_self ..)) rfl (exBoth_convert _) c!"x" exTraces[0]
    (List.mem_cons_self ..) (exBoth_names _)
  refine ⟨fs', P, hrun, hP, ?_⟩
  have hlib : WholeLib exNoB exBothT.unicode ⟨Variant.animate, [], [⟨c!"a", c!"Msg"⟩], true, none⟩
      (fun ch => ∃ e ∈ eventsOf exTraces[0], e.channel.name = ch) := by
    refine ⟨fun _ _ => rfl, ?_⟩
    have hall : ∀ e ∈ eventsOf exTraces[0], Overridden ⟨Variant.animate, [], [⟨c!"a", c!"Msg"⟩], true, none⟩ e.channel.name →
        exNoB.takes [Rtcg.Cpp.convertTo exBothT.unicode e.channel.name] 1 = true ∧
        exNoB.takes [Rtcg.Cpp.convertFrom exBothT.unicode e.channel.name] 1 = true := by decide
    rintro _ ⟨e, he, rfl⟩
    exact hall e he
  obtain ⟨st', _, _, k3, k4, k5⟩ := hL exNoB hlib [(c!"accept", .none), (c!"ready", .none), (c!"accept", .none), (c!"b", .enum c!"ok")] (by
    intro w hw e he hk hn
    have hb : e = ⟨⟨c!"b", .out⟩, .enum c!"ok"⟩ := by
      have : ∀ e ∈ eventsOf exTraces[0], e.channel.kind ≠ kIn → e = ⟨⟨c!"b", .out⟩, .enum c!"ok"⟩ := by decide
      exact this e he hk
    subst hb
    have hw : w = (c!"b", .enum c!"ok") := by revert w; decide
    subst hw
    refine ⟨⟨(Value.enum c!"ok").type, ⟨?_, ?_⟩, by unfold FitsType; decide⟩, fun ho => absurd ho (by decide)⟩
    · rintro ty ⟨f, hf, e, he, h1, rfl⟩
      have : ∀ f ∈ exTraces, ∀ e ∈ eventsOf f, e.channel.name = c!"b" → e.value.type = (Value.enum c!"ok").type := by decide
      rw [this f hf e he h1]
      exact .inl rfl
    · intro u hu
      exact hu _ ⟨exTraces[0], by simp [exTraces], ⟨⟨c!"b", .out⟩, .enum c!"ok"⟩, by simp [exTraces, eventsOf], rfl, rfl⟩) [c!"more"] [] 6 7
    (fun h => absurd h (by decide)) (by decide) (Nat.le_refl 7)
  refine ⟨st', k3.2 (by decide), k4, (k5 (fun _ => by decide)).trans ?_⟩
  decide

theorem exShared_convert (v : Variant) : ConvertNames asciiUnicode ⟨v, [], [⟨c!"a", c!"Msg"⟩], true, none⟩ (TreeChannel exSuite) := by
  have hall : ∀ ch, TreeChannel exSuite ch → ch = c!"a" ∨ ch = c!"b" := by
    rintro _ ⟨_, _, _, h1, p, n, e, h2, _, h3, rfl, _⟩
    obtain ⟨_, h1⟩ := exSuite_tree h1
    cases h1
    have hall : ∀ x ∈ preorder [] exShared, ∀ e ∈ x.2.event, e.channel.name = c!"a" ∨ e.channel.name = c!"b" := by decide
    exact hall (p, n) (mem_preorder.2 ⟨p, by simp, h2⟩) e h3
  refine ⟨?_, ?_, by simp, ?_⟩
  · intro ch h
    rcases hall ch h with rfl | rfl <;> unfold WordName <;> decide
  · intro x y hx hy
    rcases hall x hx with rfl | rfl <;> rcases hall y hy with rfl | rfl <;> decide
  · intro x hx
    rw [List.mem_singleton.1 hx]
    unfold OneLine
    decide

/-- … and so are those about trees: the animation of this tree, with the same libraries. -/
example : ∃ stms fs' P, makeStms exBothT ⟨[], exBothFs, exSuiteText⟩ [c!"rtcg-make-stms"] = (stms, .ok ()) ∧
    gen exBothT ⟨[], exBothFs, stms⟩ false c!"out" [c!"cfg.xml"] = (fs', .ok ()) ∧ OnDiskWhole exBothT fs' [c!"out", c!"animate"] c!"x" P ∧
    ∃ st', runMain P exNoB 5 7 [] [c!"ready", c!"accept", c!"b", c!"3", c!"b", c!"4", c!"more"] [] = .ok (.int 1) st' ∧ st'.input = [c!"more"] := by
  obtain ⟨stms, fs', hm, hg⟩ := exSuite_succeeds
  obtain ⟨input, hp, hd⟩ := exSuite_parse
  obtain ⟨fs, cfg, h1, h2, h3⟩ := C115_trees (T := exBothT) (env := ⟨[], exBothFs, exSuiteText⟩) (argv := [c!"rtcg-make-stms"]) (path := c!"-") asciiUnicode_ok
    (.inl ⟨_, rfl, rfl⟩) (.inl ⟨by decide, rfl⟩) hp hd (fun name root h => by
      obtain ⟨h1, h2⟩ := exSuite_tree h
      cases h2
      rw [h1]
      exact ⟨by unfold Spec.Plain; decide, noIds_of _ (by decide), fun p n e h1 h2 => (exShared_events p n e h1 h2).1⟩)
    (by unfold OneLine; decide) hm hg
  have hfs : fs = exBothFs := by
    unfold Gen.maybeClean at h1
    simp at h1
    exact h1.symm
  subst hfs
  rw [exBoth_loads] at h2
  cases h2
  obtain ⟨P, hP, hL⟩ := h3 (by decide) _ (List.mem_cons_of_mem _ (List.mem_cons_self ..)) rfl (exShared_convert _) c!"x" exShared
    (List.mem_singleton.2 rfl) (by unfold Cpp.Plain; decide) (exShared_names _) exShared_deterministic (by decide)
  refine ⟨stms, fs', P, hm, hg, hP, ?_⟩
  obtain ⟨t1, t2⟩ := exShared_typing
  have hx : ∀ w ∈ exWords, ∀ e ∈ treeEvents exShared, e.channel.kind ≠ kIn → e.channel.name = w.1 →
      (∃ ty, LeastUpper (fun ty => ∃ name root, (name, some root) ∈ exSuite ∧ Carries root w.1 ty) ty ∧ FitsType ty w.2) ∧
      Keeps exNoB exBothT.unicode ⟨Variant.animate, [], [⟨c!"a", c!"Msg"⟩], true, none⟩ w.1 w.2 := by
    intro w hw e he hk hn
    have hb : w.1 = c!"b" := by
      have : ∀ e ∈ treeEvents exShared, e.channel.kind ≠ kIn → e.channel.name = c!"b" := by decide
      rw [← hn]
      exact this e he hk
    have hfit : FitsType (Value.int 1).type w.2 := by
      unfold exWords at hw
      simp only [List.mem_cons, List.not_mem_nil, or_false] at hw
      rcases hw with rfl | rfl | rfl | rfl
      · exact absurd hb (by decide)
      · exact absurd hb (by decide)
      · exact .inr ⟨by decide, by decide⟩
      · exact .inr ⟨by decide, by decide⟩
    refine ⟨⟨(Value.int 1).type, ⟨?_, ?_⟩, hfit⟩, fun ho => absurd ho (by rw [hb]; decide)⟩
    · rintro ty ⟨name, root, h1, p, n, e, h2, _, h3, h4, rfl⟩
      obtain ⟨_, h1⟩ := exSuite_tree h1
      cases h1
      have hall : ∀ x ∈ preorder [] exShared, ∀ e ∈ x.2.event, e.value.type = (Value.int 1).type := by decide
      rw [hall (p, n) (mem_preorder.2 ⟨p, by simp, h2⟩) e h3]
      exact .inl rfl
    · intro u hu
      exact hu _ ⟨c!"x", exShared, List.mem_singleton.2 rfl, [0, 0], _, ⟨⟨c!"b", .out⟩, .int 2⟩, rfl, by decide, rfl, hb.symm, by decide⟩
  have hfail : ∃ p n, nodeAt exShared p = some n ∧ n.outcome ≠ oFail ∧ Fails n ∧
      seenTo exShared p <+: (treeMeanings exShared [] exWords).filter (sees (treeEvents exShared)) := by
    refine ⟨[0, 1, 0], _, rfl, by decide, by decide, ?_⟩
    rw [t1]
    decide
  have hlib : WholeLib exNoB exBothT.unicode ⟨Variant.animate, [], [⟨c!"a", c!"Msg"⟩], true, none⟩
      (fun ch => ∃ e ∈ treeEvents exShared, e.channel.name = ch) := by
    refine ⟨fun _ _ => rfl, ?_⟩
    have hall : ∀ e ∈ treeEvents exShared, Overridden ⟨Variant.animate, [], [⟨c!"a", c!"Msg"⟩], true, none⟩ e.channel.name →
        exNoB.takes [Rtcg.Cpp.convertTo exBothT.unicode e.channel.name] 1 = true ∧
        exNoB.takes [Rtcg.Cpp.convertFrom exBothT.unicode e.channel.name] 1 = true := by decide
    rintro _ ⟨e, he, rfl⟩
    exact hall e he
  obtain ⟨st', _, k2, k3, k4, _⟩ := hL exNoB hlib exWords hx [c!"more"] [] 5 7 (fun ho => by
    have hr := (Suite.status_built exShared_built exShared_deterministic (by decide) _).1.2 ho
    rw [t1] at hr
    exact absurd hr (by decide)) (by decide) (Nat.le_refl 7)
  have := k3.2 hfail
  rw [t2] at this
  exact ⟨st', this, k4⟩

/-! With types for both channels: -/

def exAllText : Str := c!"<rtcg-gen><directory>cfg</directory><cpp variant=\"ros\"><channel name='a' type=\"Msg\"/><channel name='b' type=\"M\"/></cpp></rtcg-gen>"

def exAllCpp : CppConfig.Config := ⟨Variant.ros, [], [⟨c!"a", c!"Msg"⟩, ⟨c!"b", c!"M"⟩], false, none⟩

def exAllFs : Fs := ⟨fun a => decide (a = []), fun a =>
  if a = [c!"traces.csv"] then some (.user exFile) else if a = [c!"cfg.xml"] then some (.user exAllText)
  else if a = [c!"cfg", c!"ros", c!"src", c!"convert", c!"convert.cpp"] then some (.user c!"code") else none⟩

theorem exAll_reads : Reads exBothT ⟨[], exAllFs, []⟩ c!"traces.csv" exFile := by
  refine .inr ⟨by decide, by decide, .user exFile, ?_, rfl⟩
  rw [show locate [] c!"traces.csv" = [c!"traces.csv"] by decide]
  rfl

theorem exAll_loads : loadConfig exBothT [] exAllFs (cleanPath c!"cfg.xml") = .ok ⟨[exAllCpp], c!"cfg"⟩ := by
  refine loadConfig_given (text := exAllText) ?_ (show Xml.parseConfig ⟨fun _ => false, fun _ => false⟩ exAllText = _ by decide +kernel) (by decide)
  rw [show locate [] (cleanPath c!"cfg.xml") = [c!"cfg.xml"] by decide]
  rfl

theorem exAll_empty : EmptyAt exAllFs (locate [] c!"out") := by
  rw [show locate [] c!"out" = [c!"out"] by decide]
  have hno : ∀ a : Loc, [c!"out"] <+: a → exAllFs.file a = none := by
    rintro a ⟨r, rfl⟩
    simp only [exAllFs, List.singleton_append, List.cons.injEq]
    rw [if_neg (fun h => absurd h.1 (by decide)), if_neg (fun h => absurd h.1 (by decide)), if_neg (fun h => absurd h.1 (by decide))]
  refine ⟨fun a ha => ?_, fun a ha hne => ⟨hno a ha, ?_⟩⟩
  · rcases List.prefix_cons_iff.1 ha with rfl | ⟨t, rfl, ht⟩
    · decide
    · exact hno _ (by rw [List.prefix_nil.1 ht])
  · obtain ⟨r, rfl⟩ := ha
    simp [exAllFs]

theorem exAll_succeeds : ∃ fs', Program.script exBothT ⟨[], exAllFs, []⟩ [c!"cfg.xml", c!"traces.csv"] = (fs', 0) := by
  refine ⟨_, Prod.ext rfl (C91_succeeds exBothT ⟨[], exAllFs, []⟩ c!"cfg.xml" c!"traces.csv" exFile exTraces ⟨[exAllCpp], c!"cfg"⟩ (by decide) exAll_reads
    exFile_read (by decide) exTraces_events exTraces_types (by decide) exAll_loads (by decide) exAll_empty ?_ ?_)⟩
  · decide
  · intro c hcc
    rw [List.mem_singleton.1 hcc]
    exact ⟨⟨⟨c!"a", c!"Msg"⟩, by decide, exTraces[0], by simp [exTraces], ⟨⟨c!"a", .in_⟩, .int 1⟩, by simp [exTraces, eventsOf], rfl⟩, by decide⟩

theorem exAll_convert : ConvertNames asciiUnicode exAllCpp (TraceChannel exTraces) ∧ ∀ ch, TraceChannel exTraces ch → Overridden exAllCpp ch := by
  have h := exBoth_convert .ros
  refine ⟨⟨h.words, h.distinct, by simp [exAllCpp], ?_⟩, ?_⟩
  · unfold OneLine
    decide
  · have hall : ∀ f ∈ exTraces, ∀ e ∈ eventsOf f, Overridden exAllCpp e.channel.name := by decide
    rintro _ ⟨f, hf, e, he, rfl⟩
    exact hall f hf e he

/-- The hypotheses of C115 about configured channels are met: all of the ROS program of this test, with convert.h, fails when the trace happens. -/
example : ∃ fs' P, Program.script exBothT ⟨[], exAllFs, []⟩ [c!"cfg.xml", c!"traces.csv"] = (fs', 0) ∧
    OnDiskWhole exBothT fs' [c!"out", c!"ros"] c!"x" P ∧
    ∃ st', runMain P exLib 0 6 [.int 0, .void] [] ([(.start, [.void]), (.accepted, [.void]), (.output ⟨c!"b", .out⟩ (.enum c!"ok"), [.str c!"ok"])].map eventOf) =
      .ok (.int 1) st' := by
  obtain ⟨fs', hrun⟩ := exAll_succeeds
  obtain ⟨cfg, named, h1, h2, h3⟩ := C110_ros (T := exBothT) asciiUnicode_ok (by decide) exAll_reads exFile_read exTraces_events exTraces_types (by decide)
    (by unfold OneLine; decide) hrun
  obtain ⟨cfg', i1, i2⟩ := C115_traces_configured (T := exBothT) asciiUnicode_ok (by decide) exAll_reads exFile_read exTraces_events exTraces_types (by decide) hrun
  rw [exAll_loads] at h1 i1
  cases h1
  cases i1
  have hn : Forbidden.nameAll exTraces = some [(c!"x", exTraces[0]), (c!"test0", exTraces[1])] := by decide +kernel
  rw [hn] at h2
  cases h2
  obtain ⟨P, hP, hL⟩ := h3 (by decide) _ (List.mem_cons_self ..) rfl (by simp [exAllCpp]) c!"x" exTraces[0] (List.mem_cons_self ..) (exBoth_names _)
  refine ⟨fs', P, hrun, i2 (by decide) _ (List.mem_cons_self ..) exAll_convert.1 exAll_convert.2 c!"x" P hP, ?_⟩
  obtain ⟨st', _, _, k3, _⟩ := hL exLib (exBoth_lib _) [(.start, [.void]), (.accepted, [.void]), (.output ⟨c!"b", .out⟩ (.enum c!"ok"), [.str c!"ok"])] (by
    intro x hx
    simp only [List.mem_cons, List.not_mem_nil, or_false] at hx
    rcases hx with rfl | rfl | rfl
    · exact ⟨by unfold TraceCallback; decide, rfl⟩
    · exact ⟨by unfold TraceCallback; decide, rfl⟩
    · refine ⟨⟨by decide, by decide, by simp, ?_⟩, _, rfl, rfl⟩
      intro e he hc
      have : e = ⟨⟨c!"b", .out⟩, .enum c!"ok"⟩ := by revert e; decide
      subst this
      rfl) (.int 0) .void [] 0 6 (Nat.le_refl 6)
  exact ⟨st', k3.2 (by decide)⟩

/-- … and so are those about trees. -/
example : ∃ stms fs', makeStms exBothT ⟨[], exAllFs, exSuiteText⟩ [c!"rtcg-make-stms"] = (stms, .ok ()) ∧
    gen exBothT ⟨[], exAllFs, stms⟩ false c!"out" [c!"cfg.xml"] = (fs', .ok ()) ∧
    ∀ name P, OnDisk exBothT fs' [c!"out", c!"ros"] name P → OnDiskWhole exBothT fs' [c!"out", c!"ros"] name P := by
  obtain ⟨input, hp, hd⟩ := exSuite_parse
  obtain ⟨stms, fs', hm, hg⟩ := C112_succeeds exBothT ⟨[], exAllFs, exSuiteText⟩ [c!"rtcg-make-stms"] c!"-" exSuiteText c!"cfg.xml" c!"out" input exSuite
    ⟨[exAllCpp], c!"cfg"⟩ (.inl ⟨_, rfl, rfl⟩) (.inl ⟨by decide, rfl⟩) hp hd (by
      intro name tree h
      obtain ⟨rfl, rfl⟩ := exSuite_tree h
      exact ⟨exShared, rfl, exShared_wf, by unfold Spec.Plain; decide, exShared_events⟩) exShared_types exAll_loads (by decide) exAll_empty (by decide) (by
      intro c hcc
      rw [List.mem_singleton.1 hcc]
      exact ⟨⟨⟨c!"a", c!"Msg"⟩, by decide, c!"x", exShared, (Value.int 1).type, List.mem_singleton.2 rfl, [0], _, ⟨⟨c!"a", .in_⟩, .int 1⟩, rfl, by decide, rfl,
        rfl, rfl⟩, by decide⟩)
  refine ⟨stms, fs', hm, hg, ?_⟩
  obtain ⟨fs, cfg, h1, h2, h3⟩ := C115_trees_configured (T := exBothT) (env := ⟨[], exAllFs, exSuiteText⟩) (argv := [c!"rtcg-make-stms"]) (path := c!"-")
    asciiUnicode_ok (.inl ⟨_, rfl, rfl⟩) (.inl ⟨by decide, rfl⟩) hp hd (fun name root h => by
      obtain ⟨h1, h2⟩ := exSuite_tree h
      cases h2
      rw [h1]
      exact ⟨by unfold Spec.Plain; decide, noIds_of _ (by decide), fun p n e h1 h2 => (exShared_events p n e h1 h2).1⟩) hm hg
  have hfs : fs = exAllFs := by
    unfold Gen.maybeClean at h1
    simp at h1
    exact h1.symm
  subst hfs
  rw [exAll_loads] at h2
  cases h2
  have h := exShared_convert .ros
  refine h3 (by decide) _ (List.mem_cons_self ..) ⟨h.words, h.distinct, by simp [exAllCpp], by unfold OneLine; decide⟩ ?_
  rintro _ ⟨_, _, _, h1, p, n, e, h2, _, h3, rfl, _⟩
  obtain ⟨_, h1⟩ := exSuite_tree h1
  cases h1
  have hall : ∀ x ∈ preorder [] exShared, ∀ e ∈ x.2.event, Overridden exAllCpp e.channel.name := by decide
  exact hall (p, n) (mem_preorder.2 ⟨p, by simp, h2⟩) e h3

end Rtcg
