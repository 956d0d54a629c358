import Verif.Props.CppText
import Verif.Props.HarnessTree
import Verif.Proofs.CppGood
import Verif.Proofs.CppItems
import Verif.Proofs.CppRosMain
import Verif.Proofs.CppAnimateMain

/-
What the generated programs do, by their texts.
-/

namespace Rtcg

open Spec Spec.Cpp Tmpl CppText

/-! ### the text and the program -/

namespace Spec.Cpp

theorem program_main {U : Unicode} {v : Variant} {date name : Str} {m : Stm} {ctx : CppConfig.Context} (h : Ok.Env U v)
    (g : GoodMain U date name m (TransitionContext.make m) ctx (Harness.initial m)) :
    program [TemplateFiles.rtcgH, TemplateFiles.rtcgCpp, mainText U v date name m (TransitionContext.make m) ctx (Harness.initial m)] =
      some (Sem.Src.prog ⟨U, v, name, m, ctx⟩) := by
  unfold program
  simp only [List.mapM_cons, List.mapM_nil, Tree.parse_rtcgH, Tree.parse_rtcgCpp, Ok.parse_main h g]
  show some _ = some _
  simp only [List.flatMap_cons, List.flatMap_nil, List.append_nil]
  rw [Sem.facts_main, ← List.append_assoc]
  rfl

end Spec.Cpp

/-- The function that names states -/
def Spec.Cpp.nameSig : Sig := ⟨[c!"state", c!"name"], some ⟨true, [c!"char"], [c!"*"]⟩, [⟨false, [c!"State"], []⟩]⟩

/-- `main`: a ROS program is given the arguments it was called with -/
def Spec.Cpp.mainSig (v : Variant) : Sig :=
  ⟨[c!"main"], some ⟨false, [c!"int"], []⟩, if v = .ros then [⟨false, [c!"int"], []⟩, ⟨false, [c!"char"], [c!"*", c!"*"]⟩] else []⟩

section

variable {U : Unicode} {date : Str} {c : CppConfig.Config} {ts : GoMap Str Validate.Test} {r : StmSuite} {name : Str} {m : Stm}

theorem Spec.Cpp.generated (hU : U.AsciiOK) (hv : c.variant = .animate ∨ c.variant = .ros) (h : MadeFrom ts r)
    (hno : ∀ nt ∈ ts, NoIds nt.2.root) (hm : (name, m) ∈ r.tests) (g : GoodTest U date c name m) :
    GoodMain U date name m (TransitionContext.make m) (c.process r.types) (Harness.initial m) ∧
    render U date (.mainCpp c.variant name m (TransitionContext.make m) (c.process r.types)) =
      (mainText U c.variant date name m (TransitionContext.make m) (c.process r.types) (Harness.initial m), .ok ()) ∧
    ∀ P, Generated U date c r.types name m P ↔ P = Sem.Src.prog ⟨U, c.variant, name, m, c.process r.types⟩ := by
  have hs := Good.made_sound hU h hno hm
  have ht := Good.made_types h hm c
  have hg := Good.main hU (date := date) (name := name) hs g.toWellNamed g.date g.name
    (ctx := c.process r.types) (by rw [(C48_process c r.types h.2.2.2.1).1]; exact g.includes) (fun s hs x hx => ⟨_, (ht s hs x hx).choose_spec.2⟩)
  have hr : render U date (.mainCpp c.variant name m (TransitionContext.make m) (c.process r.types)) =
      (mainText U c.variant date name m (TransitionContext.make m) (c.process r.types) (Harness.initial m), .ok ()) := by
    obtain ⟨s, hs'⟩ := hs.head
    cases hst : m.states with
    | nil => rw [hst] at hs'; cases hs'
    | cons s₀ rest =>
      rw [C102_main_cpp U date c.variant hv name m _ _ s₀ rest hst]
      · have : Harness.initial m = s₀.id := by
          unfold Harness.initial Stm.initialState
          rw [hst]
        rw [this]
      · intro _ e he; exact Good.merged_some hs.sets he
      · intro _ a ha
        obtain ⟨t, ty, h1, h2, _⟩ := hg.types a ha
        exact ⟨t, ty, h1, h2⟩
  refine ⟨hg, hr, fun P => ⟨?_, ?_⟩⟩
  · rintro ⟨text, h1, h2⟩
    rw [hr] at h1
    cases h1
    rw [program_main (Good.ok_env hU hv) hg] at h2
    cases h2
    rfl
  · rintro rfl
    exact ⟨_, hr, program_main (Good.ok_env hU hv) hg⟩

/-- C106: for every test of a suite that rtcg-make-stms gives, if its names can be names in C++, the templates give a main.cpp that can be read
as C++: its braces are balanced, every method that a class declares is defined, once and with the types it was declared with, and besides
them there are only the function that names states and `main`; and together with rtcg.h and rtcg.cpp it makes one program. -/
theorem C106_is_cpp (hU : U.AsciiOK) (hv : c.variant = .animate ∨ c.variant = .ros) (h : MadeFrom ts r)
    (hno : ∀ nt ∈ ts, NoIds nt.2.root) (hm : (name, m) ∈ r.tests) (g : GoodTest U date c name m) :
    ∃ text items, render U date (.mainCpp c.variant name m (TransitionContext.make m) (c.process r.types)) = (text, .ok ()) ∧
      parse (lex text) = some items ∧ balanced items [] = true ∧
      (collect Item.defines [] items).Perm (collect Item.declares [] items ++ [nameSig, mainSig c.variant]) ∧
      ((collect Item.defines [] items).map (·.name)).Nodup ∧
      ∃ P, program [TemplateFiles.rtcgH, TemplateFiles.rtcgCpp, text] = some P := by
  obtain ⟨hg, hr, hP⟩ := generated hU hv h hno hm g
  refine ⟨_, _, hr, Ok.parse_main (Good.ok_env hU hv) hg, Sem.balanced_main .., ?_, ?_, _, program_main (Good.ok_env hU hv) hg⟩
  · obtain ⟨h1, h2⟩ := Sem.sigs_main U c.variant name m (TransitionContext.make m) (c.process r.types) (Harness.initial m)
    rw [h1, h2]
    have hp := Sem.smDefs_perm U c.variant m (TransitionContext.make m)
    have e : ∀ v : Variant, (Tree.mainParams v).map (·.1) = (mainSig v).params := by
      intro v
      unfold Tree.mainParams mainSig
      by_cases h : v = Variant.ros <;> simp [h, Tree.ty]
    rw [e]
    rw [List.perm_iff_count] at hp ⊢
    intro x
    have := hp x
    simp only [List.count_append, List.count_cons, List.count_nil, nameSig, mainSig, Tree.ty] at this ⊢
    omega
  · exact Sem.defines_nodup (Good.names (Good.made_sound hU h hno hm) g.toWellNamed) ..

/-- C107: one callback.  When a method of the program that stands for a callback is called on an object that is in some configuration, it
returns, and the object is in the configuration that `Harness.step` gives; the inputs that this sends, and no others, are sent. -/
theorem C107_callback (hU : U.AsciiOK) (hv : c.variant = .animate ∨ c.variant = .ros) (h : MadeFrom ts r)
    (hno : ∀ nt ∈ ts, NoIds nt.2.root) (hm : (name, m) ∈ r.tests) (g : GoodTest U date c name m) {P : Prog}
    (hP : Generated U date c r.types name m P) {L : Lib} (hL : Provides L U c.variant m) {p : List Str} {conf : Harness.Config} {st : St}
    (hc : Holds L U c.variant m p conf st) {cb : Harness.Callback} (hcb : HasCallback m cb) {args : List Cpp.Val} (ha : ArgsOf L U c.variant cb args)
    (fuel : Nat) {depth : Nat} (hd : 4 ≤ depth) :
    ∃ st', callFn P L fuel depth [c!"StateMachine", methodOf cb] (some p) args st = .ok .void st' ∧
      Went L U c.variant m p conf (Harness.step m conf cb) st st' := by
  obtain ⟨_, _, h3⟩ := generated hU hv h hno hm g
  rw [(h3 P).1 hP]
  obtain ⟨n, rfl⟩ := Nat.exists_eq_add_of_le' hd
  let S : Sem.Src := ⟨U, c.variant, name, m, c.process r.types⟩
  have hS : Sem.Setup S L := Good.setup hU hv (Good.made_sound hU h hno hm) g.toWellNamed hL
  obtain ⟨h1, h2⟩ := (Sem.holds_iff (S := S)).1 hc
  obtain ⟨st', h4, h5, h6, new, h7, h8, h9, h10, eff, e1, e2, e3⟩ := Sem.run_callback (fuel := fuel) (n := n) hS h1 h2 hcb ha
  exact ⟨st', h4, (Sem.holds_iff (S := S)).2 ⟨h5, h2.stay hS h6⟩, ⟨new, eff, h7, e1, e2, e3⟩, h9, h10, h8⟩

/-- C108: the ROS program as a whole.  Whatever callbacks ROS calls, one after the other: the program waits for more while the test goes on,
and otherwise ends with the exit code that `Harness.exitCode` gives, having said the status and the outcomes at last; its object is in the
configuration that `Harness.run` gives, and it has sent the inputs of that, in order.  It has subscribed to every output and to the acceptance
of inputs, and set up its timers. -/
theorem C108_ros (hU : U.AsciiOK) (hv : c.variant = .ros) (h : MadeFrom ts r)
    (hno : ∀ nt ∈ ts, NoIds nt.2.root) (hm : (name, m) ∈ r.tests) (g : GoodTest U date c name m) {P : Prog}
    (hP : Generated U date c r.types name m P) {L : Lib} (hL : Provides L U .ros m) (xs : List (Harness.Callback × List Cpp.Val))
    (hx : ∀ x ∈ xs, HasCallback m x.1 ∧ ArgsOf L U .ros x.1 x.2) (argc argv : Cpp.Val) (input : List Str) (fuel : Nat) {depth : Nat} (hd : 6 ≤ depth) :
    let conf := Harness.run m (xs.map (·.1))
    ∃ st', runMain P L fuel depth [argc, argv] input (xs.map eventOf) =
        (if conf.status.isRunning then .wait st' else .ok (.int (Harness.exitCode conf)) st') ∧
      Holds L U .ros m machineAt conf st' ∧ Wired L U m st' ∧
      st'.eff.filter (isSend .ros) = conf.sent.map (sendEffect L U .ros) ∧
      (conf.status.isRunning = false → ∃ before, st'.eff = before ++ report U .ros name (GoSet.values m.tests) conf) := by
  obtain ⟨_, _, h3⟩ := generated hU (.inr hv) h hno hm g
  rw [(h3 P).1 hP]
  obtain ⟨n, rfl⟩ := Nat.exists_eq_add_of_le' hd
  let S : Sem.Src := ⟨U, c.variant, name, m, c.process r.types⟩
  rw [← hv] at hL
  have hS : Sem.Setup S L := Good.setup hU (.inr hv) (Good.made_sound hU h hno hm) g.toWellNamed hL
  rw [← hv] at hx ⊢
  obtain ⟨st', h1, h2, h4, h5, h6, h7⟩ := Sem.ros_main (fuel := fuel) (n := n) hS hv xs hx argc argv input
  exact ⟨st', h1, (Sem.holds_iff (S := S)).2 ⟨h2, h4⟩, h5, h6, h7⟩

/-- C109: the animation as a whole.  Whatever is typed — commands, names of outputs with values of their types, or something else — the program
waits for more while the test goes on, and otherwise ends with the exit code that `Harness.exitCode` gives, having said the status and the
outcomes at last, and has read no more than that; its object is in the configuration that `Harness.animate` gives, and it has said what the
SUT receives, in order. -/
theorem C109_animate (hU : U.AsciiOK) (hv : c.variant = .animate) (h : MadeFrom ts r)
    (hno : ∀ nt ∈ ts, NoIds nt.2.root) (hm : (name, m) ∈ r.tests) (g : GoodTest U date c name m) {P : Prog}
    (hP : Generated U date c r.types name m P) {L : Lib} (hL : Provides L U .animate m) (ws : List (Str × Value))
    (hx : ∀ w ∈ ws, ∀ s ∈ m.states, ∀ x ∈ s.transitionSets, x.channel.kind ≠ kIn → x.channel.name = w.1 →
      CanType L U (c.process r.types) x.channel w.2) (rest : List Str)
    (hr : (Harness.animate m ws).status.isRunning = true → rest = []) (events : List Cpp.Event) {fuel depth : Nat} (hf : ws.length < fuel)
    (hd : 6 ≤ depth) :
    let conf := Harness.animate m ws
    ∃ st', runMain P L fuel depth [] (typed m (Harness.construct m) ws ++ rest) events =
        (if conf.status.isRunning then .wait st' else .ok (.int (Harness.exitCode conf)) st') ∧
      Holds L U .animate m machineAt conf st' ∧ st'.input = rest ∧
      st'.eff.filter (isSend .animate) = conf.sent.map (sendEffect L U .animate) ∧
      (conf.status.isRunning = false → ∃ before, st'.eff = before ++ report U .animate name (GoSet.values m.tests) conf) := by
  obtain ⟨_, _, h3⟩ := generated hU (.inl hv) h hno hm g
  rw [(h3 P).1 hP]
  obtain ⟨n, rfl⟩ := Nat.exists_eq_add_of_le' hd
  let S : Sem.Src := ⟨U, c.variant, name, m, c.process r.types⟩
  rw [← hv] at hL
  have hS : Sem.Setup S L := Good.setup hU (.inl hv) (Good.made_sound hU h hno hm) g.toWellNamed hL
  obtain ⟨st', h1, h2, h4, h5, h6⟩ := Sem.animate_main (fuel := fuel) (n := n) hS hv ws hf (fun w hw a ha e => by
    have ha' : a ∈ m.aggregates ∧ a.channel.kind ≠ kIn := by
      have := (C39_partition m).2.2.2
      rw [show S.tc.out = (TransitionContext.make m).out from rfl, this, List.mem_filter] at ha
      simpa using ha
    obtain ⟨s, hs, x, hx1, hx2⟩ := Good.agg_channel ha'.1
    rw [← hx2] at ha' e ⊢
    have hty := hx w hw s hs x hx1 ha'.2 e
    obtain ⟨ty, h1, h2⟩ := Good.made_types h hm c s hs x hx1
    refine ⟨Good.made_kind h hm ⟨s, hs, x, hx1, rfl⟩ ha'.2 h1 ?_, hty⟩
    obtain ⟨⟨t, h4, h5⟩, _⟩ := hty
    rw [h2] at h4
    cases h4
    exact h5) rest hr events
  rw [← hv]
  exact ⟨st', h1, (Sem.holds_iff (S := S)).2 ⟨h2, Sem.no_pubs hv⟩, h4, h5, h6⟩

end

/-! ### examples -/

/-- The machine of a trace of one input and one output. -/
def exTwo : Stm :=
  ⟨[⟨c!"initial", [⟨⟨c!"go", .in_⟩, [⟨.int 1, c!"step0"⟩]⟩], [(c!"t", oInc)]⟩,
    ⟨c!"step0", [⟨⟨c!"moved", .out⟩, [⟨.int 2, c!"step1"⟩]⟩], [(c!"t", oPass)]⟩, ⟨c!"step1", [], [(c!"t", oFail)]⟩],
    [(c!"go", some ⟨⟨1⟩, ⟨1⟩⟩), (c!"moved", some ⟨⟨1⟩, ⟨1⟩⟩)], [(c!"t", true)]⟩

def exTwoTypes : TypeMap := [(c!"go", some ⟨⟨1⟩, ⟨1⟩⟩), (c!"moved", some ⟨⟨1⟩, ⟨1⟩⟩)]

theorem exTwo_made : ∃ ts, MadeFrom ts ⟨exTwoTypes, [(c!"t", exTwo)]⟩ ∧ ∀ nt ∈ ts, NoIds nt.2.root :=
  ⟨_, made_of_trace ⟨[], [⟨⟨c!"go", .in_⟩, .int 1⟩], ⟨⟨c!"moved", .out⟩, .int 2⟩⟩ c!"t" _ _ (by rfl)⟩

/-- Libraries that know every name, and conversions that change nothing. -/
def exLib : Lib := ⟨fun _ => true, fun _ _ => true, fun q args => if q.head? = some c!".advertise" then .lib 1 else args.head?.getD .void, fun _ => 0⟩

def exCpp (v : Variant) : CppConfig.Config := ⟨v, [⟨c!"my.h", false⟩], [], true, none⟩

theorem exTwo_good (v : Variant) (hv : v = .animate ∨ v = .ros) : GoodTest asciiUnicode c!"today" (exCpp v) c!"t" exTwo := by
  have hw : WellNamed asciiUnicode v exTwo := by
    refine ⟨?_, ?_, ?_, ?_, ?_, ?_, ?_⟩
    · unfold WordName; decide
    · unfold Cpp.GoodValue Cpp.Plain; decide
    · unfold Ident; decide
    · rcases hv with rfl | rfl <;> decide
    · decide
    · rcases hv with rfl | rfl <;> decide
    · intro _; decide
  refine ⟨hw, by unfold OneLine; decide, by unfold Cpp.Plain; decide, ?_⟩
  intro i hi
  rw [List.mem_singleton.1 hi]
  unfold OneLine
  decide

theorem exLib_provides (v : Variant) : Provides exLib asciiUnicode v exTwo := by
  refine ⟨fun _ _ => rfl, fun _ _ _ _ => ⟨rfl, rfl⟩, fun _ => ⟨fun _ _ => rfl, fun _ _ => rfl, fun _ _ _ _ => ⟨rfl, fun args => ⟨1, rfl⟩⟩⟩⟩

/-- The hypotheses of C106 are met. -/
example : ∃ text items, render asciiUnicode c!"today" (.mainCpp .ros c!"t" exTwo (TransitionContext.make exTwo) ((exCpp .ros).process exTwoTypes)) =
    (text, .ok ()) ∧ parse (lex text) = some items ∧ balanced items [] = true := by
  obtain ⟨ts, h1, h2⟩ := exTwo_made
  obtain ⟨text, items, h3, h4, h5, _⟩ := C106_is_cpp asciiUnicode_ok (c := exCpp .ros) (.inr rfl) h1 h2 (List.mem_singleton.2 rfl) (exTwo_good .ros (.inr rfl))
  exact ⟨text, items, h3, h4, h5⟩

def exEvents : List (Harness.Callback × List Cpp.Val) :=
  [(.start, [.void]), (.accepted, [.void]), (.output ⟨c!"moved", .out⟩ (.int 2), [.int 2]), (.timeout, [.void])]

theorem exEvents_ok : ∀ x ∈ exEvents, HasCallback exTwo x.1 ∧ ArgsOf exLib asciiUnicode .ros x.1 x.2 := by
  intro x hx
  simp only [exEvents, List.mem_cons, List.not_mem_nil, or_false] at hx
  rcases hx with rfl | rfl | rfl | rfl
  · exact ⟨⟨_, rfl, _, List.mem_singleton.2 rfl, rfl⟩, rfl⟩
  · exact ⟨⟨_, List.mem_cons_self .., _, List.mem_singleton.2 rfl, rfl⟩, rfl⟩
  · refine ⟨⟨⟨_, List.mem_cons_of_mem _ (List.mem_cons_self ..), _, List.mem_singleton.2 rfl, rfl⟩, by decide, by decide, ?_⟩, _, rfl, rfl⟩
    unfold SameKind
    decide
  · exact ⟨trivial, rfl⟩

/-- The hypotheses of C108 are met: the program of this test, driven by the whole trace (and a timeout that comes too late), ends with exit
code 1, and has sent 1 on go. -/
example : ∃ P st', Generated asciiUnicode c!"today" (exCpp .ros) exTwoTypes c!"t" exTwo P ∧
    runMain P exLib 0 6 [.int 0, .void] [] (exEvents.map eventOf) = .ok (.int 1) st' ∧
    st'.eff.filter (isSend .ros) = [sendEffect exLib asciiUnicode .ros (⟨c!"go", .in_⟩, .int 1)] := by
  obtain ⟨ts, h1, h2⟩ := exTwo_made
  obtain ⟨_, _, h3⟩ := generated asciiUnicode_ok (c := exCpp .ros) (.inr rfl) h1 h2 (List.mem_singleton.2 rfl) (exTwo_good .ros (.inr rfl))
  have hP := (h3 _).2 rfl
  obtain ⟨st', h4, _, _, h5, _⟩ := C108_ros asciiUnicode_ok (c := exCpp .ros) rfl h1 h2 (List.mem_singleton.2 rfl) (exTwo_good .ros (.inr rfl)) hP
    (exLib_provides .ros) exEvents exEvents_ok (.int 0) .void [] 0 (Nat.le_refl 6)
  exact ⟨_, st', hP, h4, h5⟩

/-- The hypotheses of C107 are met: after the start, the input can be accepted. -/
example : ∃ P st st', Holds exLib asciiUnicode .ros exTwo machineAt (Harness.run exTwo [.start]) st ∧
    callFn P exLib 0 4 [c!"StateMachine", c!"inputAcceptedCallback"] (some machineAt) [.void] st = .ok .void st' ∧
    st'.mem (machineAt ++ [c!"status_"]) = some (statusVal .waitOut) := by
  obtain ⟨ts, h1, h2⟩ := exTwo_made
  obtain ⟨_, _, h3⟩ := generated asciiUnicode_ok (c := exCpp .ros) (.inr rfl) h1 h2 (List.mem_singleton.2 rfl) (exTwo_good .ros (.inr rfl))
  have hP := (h3 _).2 rfl
  obtain ⟨st, _, h4, _⟩ := C108_ros asciiUnicode_ok (c := exCpp .ros) rfl h1 h2 (List.mem_singleton.2 rfl) (exTwo_good .ros (.inr rfl)) hP
    (exLib_provides .ros) (exEvents.take 1) (fun x hx => exEvents_ok x (List.mem_of_mem_take hx)) (.int 0) .void [] 0 (Nat.le_refl 6)
  obtain ⟨st', h5, h6⟩ := C107_callback asciiUnicode_ok (c := exCpp .ros) (.inr rfl) h1 h2 (List.mem_singleton.2 rfl) (exTwo_good .ros (.inr rfl)) hP
    (exLib_provides .ros) h4 (exEvents_ok (.accepted, [.void]) (by decide)).1 (exEvents_ok (.accepted, [.void]) (by decide)).2 0 (Nat.le_refl 4)
  exact ⟨_, st, st', h4, h5, h6.holds.status⟩

/-- The hypotheses of C109 are met. -/
example : ∃ P st', Generated asciiUnicode c!"today" (exCpp .animate) exTwoTypes c!"t" exTwo P ∧
    runMain P exLib 5 6 [] [c!"ready", c!"what", c!"accept", c!"moved", c!"2", c!"more"] [] = .ok (.int 1) st' ∧ st'.input = [c!"more"] := by
  obtain ⟨ts, h1, h2⟩ := exTwo_made
  obtain ⟨_, _, h3⟩ := generated asciiUnicode_ok (c := exCpp .animate) (.inl rfl) h1 h2 (List.mem_singleton.2 rfl) (exTwo_good .animate (.inl rfl))
  have hP := (h3 _).2 rfl
  obtain ⟨st', h4, _, h5, _⟩ := C109_animate asciiUnicode_ok (c := exCpp .animate) rfl h1 h2 (List.mem_singleton.2 rfl) (exTwo_good .animate (.inl rfl)) hP
    (exLib_provides .animate) [(c!"ready", .none), (c!"what", .none), (c!"accept", .none), (c!"moved", .int 2)] (by
      intro w hw s hs x hx hk hn
      have hx' : x.channel = ⟨c!"moved", .out⟩ := by
        have : ∀ s ∈ exTwo.states, ∀ x ∈ s.transitionSets, x.channel.kind ≠ kIn → x.channel = ⟨c!"moved", .out⟩ := by decide
        exact this s hs x hx hk
      rw [hx'] at hn ⊢
      have : w = (c!"moved", .int 2) := by
        revert w; decide
      subst this
      exact ⟨⟨⟨⟨1⟩, ⟨1⟩⟩, by decide, by unfold FitsType; decide⟩, rfl⟩) [c!"more"] (by decide) [] (fuel := 5) (by decide) (Nat.le_refl 6)
  exact ⟨_, st', hP, h4, h5⟩

/-- The machine of a trace of one output without a value. -/
def exNone : Stm :=
  ⟨[⟨c!"initial", [⟨⟨c!"moved", .out⟩, [⟨.none, c!"step0"⟩]⟩], [(c!"t", oPass)]⟩, ⟨c!"step0", [], [(c!"t", oFail)]⟩],
    [(c!"moved", some ⟨⟨0⟩, ⟨0⟩⟩)], [(c!"t", true)]⟩

def exNoneTypes : TypeMap := [(c!"moved", some ⟨⟨0⟩, ⟨0⟩⟩)]

/-- C106: that there are values is needed: an event without one gives a main.cpp that is not C++ (`value == `, and nothing after it). -/
theorem C106_needs_values (v : Variant) (hv : v = .animate ∨ v = .ros) : ∃ ts r m, MadeFrom ts r ∧ (∀ nt ∈ ts, NoIds nt.2.root) ∧ (c!"t", m) ∈ r.tests ∧
    ∃ text, render asciiUnicode c!"today" (.mainCpp v c!"t" m (TransitionContext.make m) ((exCpp v).process r.types)) = (text, .ok ()) ∧
      parse (lex text) = none := by
  obtain ⟨h1, h2⟩ := made_of_trace ⟨[], [], ⟨⟨c!"moved", .out⟩, .none⟩⟩ c!"t" _ ⟨exNoneTypes, [(c!"t", exNone)]⟩ (by rfl)
  refine ⟨_, _, _, h1, h2, List.mem_singleton.2 rfl, _, C102_main_cpp asciiUnicode _ v hv c!"t" exNone _ _ _ _ rfl (fun _ => by decide) (fun _ => ?_), ?_⟩
  · intro a ha
    rw [show (TransitionContext.make exNone).out = [⟨⟨c!"moved", .out⟩, [(c!"initial", [⟨.none, c!"step0"⟩])]⟩] by decide, List.mem_singleton] at ha
    subst ha
    exact ⟨_, _, rfl, rfl⟩
  · rcases hv with rfl | rfl <;> decide +kernel

end Rtcg
