import Verif.Proofs.TemplateExec
import Verif.Props.Run
import Verif.Props.Xml

/-
The text of the generated C++ files: what the templates of /repo, executed by the model of text/template, produce.
-/

namespace Rtcg

open Spec Spec.CppText Tmpl

/-! ### C102 -/

/-- C102: executing the templates for main.cpp gives exactly the text that `Spec.CppText.mainText` spells out, for every test, machine and
context of which the template can be executed: there is a first state, states that send inputs have transitions, and (for the animator) the
types of the outputs are known. -/
theorem C102_main_cpp (U : Unicode) (date : Str) (v : Variant) (hv : v = .animate ∨ v = .ros) (name : Str) (m : Stm)
    (tc : TransitionContext) (ctx : CppConfig.Context) (s : State) (rest : List State) (hs : m.states = s :: rest)
    (hin : tc.hasIn = true → ∀ e ∈ tc.inMerged, e.2 ≠ [])
    (hty : v = .animate → ∀ a ∈ tc.out, ∃ t ty, GoMap.get? ctx.channelTypes a.channel.name = some t ∧ t.base = some ty) :
    render U date (.mainCpp v name m tc ctx) = (mainText U v date name m tc ctx s.id, .ok ()) := by
  have h := (Exec.mainCpp_ok v m tc ctx).2 ⟨by rw [hs]; simp, hin, hty⟩
  rw [Exec.main_render U date v hv name m tc ctx h, Exec.firstId, hs]
  rfl

/-! ### C103 -/

/-- C103: executing the templates for convert.h gives exactly `Spec.CppText.convertText`, if the types of all channels are known. -/
theorem C103_convert_h (U : Unicode) (date : Str) (v : Variant) (hv : v = .animate ∨ v = .ros) (ctx : CppConfig.Context)
    (h : ∀ e ∈ ctx.channelTypes, ∃ ty, e.2.base = some ty) :
    render U date (.convertH v ctx) = (convertText U v ctx, .ok ()) :=
  Exec.convert_render U date v hv ctx ((Exec.convertH_ok ctx).2 h)

/-- A machine that expects an output, then sends an input, then fails, for the examples. -/
def exTextStm : Stm :=
  ⟨[⟨c!"start", [⟨⟨c!"sensed", .out⟩, [⟨.enum c!"near", c!"step0"⟩]⟩], [(c!"t", oInc)]⟩,
    ⟨c!"step0", [⟨⟨c!"speed", .in_⟩, [⟨.int 2, c!"step1"⟩]⟩], [(c!"t", oPass)]⟩,
    ⟨c!"step1", [], [(c!"t", oFail)]⟩], [(c!"sensed", some ⟨⟨3⟩, ⟨0⟩⟩), (c!"speed", some ⟨⟨1⟩, ⟨1⟩⟩)], [(c!"t", true)]⟩

def exTextCtx : CppConfig.Context := ⟨[⟨c!"my.h", false⟩], [(c!"sensed", ⟨some ⟨⟨3⟩, ⟨0⟩⟩, []⟩), (c!"speed", ⟨some ⟨⟨1⟩, ⟨1⟩⟩, c!"Speed"⟩)], true⟩

example (U : Unicode) (date : Str) (v : Variant) (hv : v = .animate ∨ v = .ros) :
    render U date (.mainCpp v c!"t" exTextStm (TransitionContext.make exTextStm) exTextCtx) =
      (mainText U v date c!"t" exTextStm (TransitionContext.make exTextStm) exTextCtx c!"start", .ok ()) := by
  refine C102_main_cpp U date v hv c!"t" exTextStm _ exTextCtx ⟨c!"start", _, _⟩ _ rfl (fun _ => by decide) (fun _ => ?_)
  intro a ha
  rw [show (TransitionContext.make exTextStm).out = [⟨⟨c!"sensed", .out⟩, [(c!"start", [⟨.enum c!"near", c!"step0"⟩])]⟩] by decide,
    List.mem_singleton] at ha
  subst ha
  exact ⟨_, _, rfl, rfl⟩

example (U : Unicode) (date : Str) (v : Variant) (hv : v = .animate ∨ v = .ros) :
    render U date (.convertH v exTextCtx) = (convertText U v exTextCtx, .ok ()) := by
  refine C103_convert_h U date v hv _ ?_
  intro e he
  rcases List.mem_cons.1 he with rfl | he
  · exact ⟨_, rfl⟩
  · rw [List.mem_singleton.1 he]; exact ⟨_, rfl⟩

/-- What an entry function looks like. -/
example : String.ofList (entry ⟨Char.toUpper, Char.toLower, Char.isUpper, Char.isLower⟩ .ros
    ⟨c!"step0", [⟨⟨c!"speed", .in_⟩, [⟨.int 2, c!"step1"⟩]⟩], [(c!"t", oPass)]⟩) = "

void StateMachine::enterStep0()
{
  state_ = State::STEP0;

  ROS_INFO_STREAM(\"Entered state step0.\" << std::endl);
  verdict_.t(rtcg::Outcome::PASS);

  // This state provides an input to the SUT
  status_ = rtcg::Status::WAIT_IN;

  ROS_INFO_STREAM(\"State 'step0' sends 2 to SUT on speed; \" <<
    \"if accepted, next state will be 'step1'.\" << std::endl);

  speed_pub_.publish(toSpeed(2));
}" := by decide +kernel

/-! ### C104 -/

/-- C104: executing a template fails exactly where the failures written down by hand say: for main.cpp, without a state, with an input
state without transitions, or with an output whose type the animator does not know; for convert.h, with a channel whose type is not
known.  The other files never fail. -/
theorem C104_failures (U : Unicode) (date : Str) (c : Content) (hv : ∀ v name m tc ctx, c = .mainCpp v name m tc ctx → v = .animate ∨ v = .ros)
    (hv' : ∀ v ctx, c = .convertH v ctx → v = .animate ∨ v = .ros) : (render U date c).2 = Templates.execute c := by
  cases c with
  | mainCpp v name m tc ctx =>
    have hv := hv _ _ _ _ _ rfl
    show _ = Templates.mainCpp v m tc ctx
    rcases Exec.mainCpp_cases v m tc ctx with h | h
    · rw [Exec.main_render U date v hv name m tc ctx h, h]
    · rw [Exec.main_render_fails U date v hv name m tc ctx (by rw [h]; exact fun h => (nomatch h)), h]
  | convertH v ctx =>
    have hv := hv' _ _ rfl
    show _ = Templates.convertH ctx
    by_cases h : Templates.convertH ctx = .ok ()
    · rw [Exec.convert_render U date v hv ctx h, h]
    · rw [Exec.convert_render_fails U date v hv ctx h]
      unfold Templates.convertH at h ⊢
      split
      · rename_i h2; rw [if_pos h2] at h; exact absurd rfl h
      · rfl
  | makefile tests ctx => rw [Exec.makefile_render]; rfl
  | cmake p => rw [Exec.cmake_render]; rfl
  | empty => rfl
  | user s => rfl
  | «prelude» n => rfl
  | packageXml p => rfl

/-- C104: the templates of the Makefile and of CMakeLists.txt produce the texts that the properties of those files are about. -/
theorem C104_build_files (U : Unicode) (date : Str) :
    (∀ tests ctx, render U date (.makefile tests ctx) = (Templates.makefileText tests ctx, .ok ())) ∧
    ∀ p, render U date (.cmake p) = (Templates.cmakeText p, .ok ()) :=
  ⟨Exec.makefile_render U date, Exec.cmake_render U date⟩

/-- An execution that fails: there is no state to start in; what was written before that stays. -/
example (U : Unicode) (date : Str) : (render U date (.mainCpp .ros c!"t" ⟨[], [], []⟩ (TransitionContext.make ⟨[], [], []⟩) exTextCtx)).2 =
    throwErr .template := by
  rw [C104_failures _ _ _ (fun v name m tc ctx h => by cases h; exact .inr rfl) (by intro v ctx h; cases h)]
  decide

/-! ### C105 -/

theorem Templates.run_executed {cwd : Loc} {ops : List Op} {fs fs' : Fs} (h : Templates.run cwd fs ops = (fs', .ok ())) {p : Str} {c : Content}
    (hp : Op.write p c ∈ ops) : Templates.execute c = .ok () := by
  induction ops generalizing fs with
  | nil => cases hp
  | cons op ops ih =>
    rw [Templates.run] at h
    cases hr : Templates.runOp cwd fs op with
    | mk f r =>
      cases r with
      | error e => simp only [hr] at h; simp at h
      | ok u =>
        simp only [hr] at h
        rcases List.mem_cons.1 hp with rfl | hp
        · unfold Templates.runOp at hr
          cases hg : Gen.runOp cwd fs (.write p c) with
          | error e => simp only [hg] at hr; simp at hr
          | ok g =>
            simp only [hg, Prod.mk.injEq] at hr
            exact hr.2
        · exact ih h hp

/-- What rtcg-gen did when it succeeded: it loaded the configuration, after cleaning if asked to, and generated everything. -/
theorem gen_succeeded {T : TextLayer} {env : Env} {clean : Bool} {output : Str} {argv : List Str} {config : Str} {suite : StmSuite} {fs' : Fs}
    (hg : GivenSuite T env argv config suite) (hok : Program.gen T env clean output argv = (fs', .ok ())) :
    ∃ fs cfg, Gen.maybeClean env.cwd env.fs clean (cleanPath output) = (fs, .ok ()) ∧
      Program.loadConfig T env.cwd fs (cleanPath config) = .ok cfg ∧
      Templates.run env.cwd fs (Gen.ops cfg (cleanPath output) suite) = (fs', .ok ()) := by
  obtain ⟨j, hg⟩ := hg.json
  rw [Run.gen_given hg] at hok
  cases hm : Gen.maybeClean env.cwd env.fs clean (cleanPath output) with
  | mk fs r =>
    cases r with
    | error e => simp only [hm] at hok; simp at hok
    | ok u =>
      simp only [hm] at hok
      unfold Program.generate at hok
      cases hl : Program.loadConfig T env.cwd fs (cleanPath config) with
      | error e => simp only [hl] at hok; simp at hok
      | ok cfg =>
        simp only [hl] at hok
        exact ⟨fs, cfg, rfl, hl, (Templates.runRead_ok hok).1⟩

/-- A file with a text is there. -/
def Spec.HasText (T : TextLayer) (fs : Fs) (a : Loc) (text : Str) : Prop := ∃ file, fs.file a = some file ∧ T.text file = text

/-- C105: when rtcg-gen has succeeded, on any suite it could read, then below the directory of every configured variant the prelude is as
it is embedded, convert.h holds `convertText`, every test has a first state and its main.cpp holds `mainText`, and the Makefile and the
CMakeLists.txt of every test, if asked for, hold `makefileText` and `cmakeText`. -/
theorem C105_generated (T : TextLayer) (env : Env) (clean : Bool) (output : Str) (argv : List Str) (config : Str) (suite : StmSuite) (fs' : Fs)
    (hg : GivenSuite T env argv config suite) (hn : PlainNames suite)
    (hok : Program.gen T env clean output argv = (fs', .ok ())) :
    ∃ fs cfg, Gen.maybeClean env.cwd env.fs clean (cleanPath output) = (fs, .ok ()) ∧
      Program.loadConfig T env.cwd fs (cleanPath config) = .ok cfg ∧
      ((cfg.cpps.map (·.variant)).Nodup → ∀ c ∈ cfg.cpps,
        let dir := locate env.cwd output ++ [c.variant.string]
        let ctx := c.process suite.types
        HasText T fs' (dir ++ [c!"src", c!"rtcg", c!"rtcg.cpp"]) TemplateFiles.rtcgCpp ∧
        HasText T fs' (dir ++ [c!"src", c!"rtcg", c!"rtcg.h"]) TemplateFiles.rtcgH ∧
        HasText T fs' (dir ++ [c!"src", c!"convert", c!"convert.h"]) (convertText T.unicode c.variant ctx) ∧
        (∀ name m, (name, m) ∈ suite.tests → ∃ s rest, m.states = s :: rest ∧
          HasText T fs' (dir ++ [c!"src", name, c!"src", c!"main.cpp"])
            (mainText T.unicode c.variant T.date name m (TransitionContext.make m) ctx s.id)) ∧
        (c.makefile = true → HasText T fs' (dir ++ [c!"Makefile"]) (Templates.makefileText suite.tests.keys ctx)) ∧
        ∀ pkg, c.catkin = some pkg → ∀ name ∈ suite.tests.keys,
          HasText T fs' (dir ++ [c!"src", name, c!"CMakeLists.txt"]) (Templates.cmakeText (Catkin.forTest pkg name))) := by
  obtain ⟨fs, cfg, hm, hl, hr⟩ := gen_succeeded hg hok
  refine ⟨fs, cfg, hm, hl, fun hv c hc => ?_⟩
  obtain ⟨j, input, text, _, _, _, hd⟩ := hg.json
  obtain ⟨hwt, hwf, _⟩ := Json.decodeStmSuite_maps hd
  have hvar : c.variant = .animate ∨ c.variant = .ros := by
    obtain ⟨file, raw, _, hs, hcpp, _⟩ := (C93_load T env.cwd fs (cleanPath config) cfg).1 hl
    rw [hcpp] at hc
    exact ((ConfigSay.says_fits hs).cpps c hc).variant
  have hcon := (C66_contents env.cwd fs fs' cfg (cleanPath output) suite hn hwf hwt hv (Templates.run_ok hr)).1 c hc
  rw [locate_cleanPath] at hcon
  have hex : ∀ x ∈ CppGen.generate ((Gen.variantDirs (gdirs cfg (cleanPath output)) c).subdir c!"src") c.variant (c.process suite.types) suite,
      ∀ p k, x = Op.write p k → Templates.execute k = .ok () := by
    rintro x hx p k rfl
    refine Templates.run_executed hr (p := p) ?_
    unfold Gen.ops
    refine List.mem_append.2 (.inr (List.mem_flatMap.2 ⟨c, hc, ?_⟩))
    unfold Gen.writeOps
    exact List.mem_append.2 (.inl (List.mem_append.2 (.inl hx)))
  have hcon' : ∀ r k, (r, k) ∈ filesOf suite c → HasText T fs' (locate env.cwd output ++ [c.variant.string] ++ r) (T.text k) := by
    intro r k hrk
    refine ⟨k, ?_, rfl⟩
    have := hcon _ hrk
    simpa using this
  refine ⟨?_, ?_, ?_, ?_, ?_, ?_⟩
  · exact hcon' _ (.prelude c!"rtcg.cpp") (by simp [filesOf])
  · exact hcon' _ (.prelude c!"rtcg.h") (by simp [filesOf])
  · have h := hcon' [c!"src", c!"convert", c!"convert.h"] (.convertH c.variant (c.process suite.types)) (by simp [filesOf])
    have he := hex (.write _ (.convertH c.variant (c.process suite.types)))
      (by simp only [CppGen.generate, CppGen.generateCommon, List.mem_append]; exact .inl (.inr (.inr (List.mem_singleton.2 rfl)))) _ _ rfl
    have : T.text (.convertH c.variant (c.process suite.types)) = convertText T.unicode c.variant (c.process suite.types) := by
      show (render T.unicode T.date _).1 = _
      rw [Exec.convert_render T.unicode T.date _ hvar _ he]
    rwa [this] at h
  · intro name m hnm
    have h := hcon' [c!"src", name, c!"src", c!"main.cpp"]
      (.mainCpp c.variant name m (TransitionContext.make m) (c.process suite.types))
      (by simp only [filesOf, List.mem_append, List.mem_map]; exact .inl (.inl (.inr ⟨(name, m), hnm, rfl⟩)))
    have he := hex (.write _ (.mainCpp c.variant name m (TransitionContext.make m) (c.process suite.types)))
      (by simp only [CppGen.generate, CppGen.generateTests, List.mem_append, List.mem_map]; exact .inr ⟨(name, m), hnm, rfl⟩) _ _ rfl
    have hs := ((Exec.mainCpp_ok _ _ _ _).1 he).1
    cases hst : m.states with
    | nil => exact absurd hst hs
    | cons s rest =>
      refine ⟨s, rest, rfl, ?_⟩
      have : T.text (.mainCpp c.variant name m (TransitionContext.make m) (c.process suite.types)) =
          mainText T.unicode c.variant T.date name m (TransitionContext.make m) (c.process suite.types) s.id := by
        show (render T.unicode T.date _).1 = _
        rw [Exec.main_render T.unicode T.date _ hvar _ _ _ _ he, Exec.firstId, hst]
        rfl
      rwa [this] at h
  · intro hmk
    exact hcon' _ (.makefile suite.tests.keys (c.process suite.types)) (by simp [filesOf, hmk])
  · intro pkg hp name hk
    obtain ⟨⟨k, m⟩, hkm, rfl⟩ := List.mem_map.1 hk
    refine hcon' _ (.cmake (Catkin.forTest pkg k)) ?_
    simp only [filesOf, hp, List.mem_append, List.mem_flatMap]
    exact .inl (.inr ⟨_, hkm, by simp⟩)

/-- A suite of one machine as JSON, and a directory with a configuration of a harness that takes it. -/
def exGenInput : Str := c!"{\"types\": {\"x\": \"int\"}, \"tests\": {\"a\": {\"states\": [{\"id\": \"s\", \"verdicts\": {\"a\": \"pass\"}}], \"tests\": [\"a\"]}}}"

def exGenFs : Fs := ⟨fun a => decide (a = []), fun a =>
  if a = [c!"cfg.xml"] then some (.user c!"<rtcg-gen><cpp variant=\"animate\"><makefile/><channel name=\"x\" type=\"T\"/></cpp></rtcg-gen>")
  else if a = [c!"animate", c!"src", c!"convert", c!"convert.cpp"] then some (.user c!"code") else none⟩

/-- Not vacuous: rtcg-gen succeeds on these. -/
example : let T : TextLayer := ⟨⟨fun _ => false, fun _ => false⟩, ⟨Char.toUpper, Char.toLower, Char.isUpper, Char.isLower⟩, c!"today"⟩
    ∃ suite fs', GivenSuite T ⟨[], exGenFs, exGenInput⟩ [c!"cfg.xml"] c!"cfg.xml" suite ∧ PlainNames suite ∧ suite.tests.length = 1 ∧
      Program.gen T ⟨[], exGenFs, exGenInput⟩ false c!"out" [c!"cfg.xml"] = (fs', .ok ()) := by
  intro T
  refine ⟨⟨[(c!"x", some ⟨⟨1⟩, ⟨2⟩⟩)], [(c!"a", ⟨[⟨c!"s", [], [(c!"a", oPass)]⟩], [], [(c!"a", true)]⟩)]⟩, _, ?_, ?_, rfl,
    Prod.ext rfl (show (Program.gen T ⟨[], exGenFs, exGenInput⟩ false c!"out" [c!"cfg.xml"]).2 = .ok () from ?_)⟩
  · exact ⟨c!"-", exGenInput, _, .inl ⟨rfl, rfl⟩, .inl ⟨by decide, rfl⟩, rfl, rfl⟩
  · unfold PlainNames; decide
  · decide +kernel

end Rtcg
