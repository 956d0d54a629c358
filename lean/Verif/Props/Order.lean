import Verif.Proofs.Order
import Verif.Props.Programs
import Verif.Props.JsonText
import Verif.Props.Crash
import Verif.Props.Conformance

/-
C113: what the programs write does not depend on the order in which Go visits maps.
-/

namespace Rtcg

open Spec Order

/-! ### rtcg-read-traces -/

theorem may_read (file : Str) (out : Res Json) : MayReadTraces file out ↔ out = readTracesProgram file := by
  unfold MayReadTraces readTracesProgram
  cases hr : (Forbidden.read file).getD (.error .panic) with
  | error f => exact Iff.rfl
  | ok traces =>
    have hr' : Forbidden.read file = some (.ok traces) := by
      cases h : Forbidden.read file with
      | none => rw [h] at hr; cases hr
      | some r => rw [h] at hr; simp only [Option.getD_some] at hr; rw [hr]
    obtain ⟨j, hj, _⟩ := JsonText.readTraces_json hr'
    unfold readTracesProgram at hj
    rw [hr] at hj
    simp only at hj ⊢
    obtain ⟨names, hl, hna, hnd, _, _⟩ := nameAll_spec traces
    rw [hna] at hj ⊢
    simp only at hj ⊢
    have hwf : GoMap.WF (names.zip traces) := by
      unfold GoMap.WF; rw [List.map_fst_zip (by omega)]; exact hnd
    constructor
    · rintro ⟨named', tests, hp, hp', rfl⟩
      have hwf' : GoMap.WF named' := (hp.map _).nodup_iff.1 hwf
      rw [expandAll_eq _ hwf] at hj ⊢
      rw [expandAll_eq _ hwf'] at hp'
      rw [hj]
      refine encodeMap_perm ?_ ?_ hj
      · unfold GoMap.WF
        unfold GoMap.WF at hwf
        simpa [Function.comp_def] using hwf
      · exact ((hp.map _).trans hp').map _
    · rintro rfl
      exact ⟨_, _, List.Perm.refl _, List.Perm.refl _, rfl⟩

/-- C113: whatever the orders in which maps are visited, rtcg-read-traces writes the same text and ends alike. -/
theorem C113_read_traces (T : TextLayer) (env : Env) (argv : List Str) (out : Str × Res Unit) :
    MayReadTracesMain T env argv out ↔ out = Program.readTraces T env argv := by
  unfold MayReadTracesMain MayRun Program.readTraces
  cases Cli.parseFileArgument argv 2 with
  | error e => exact Iff.rfl
  | ok path =>
    simp only
    cases Program.readFileOrStdin T env path with
    | error e => exact Iff.rfl
    | ok text =>
      simp only
      constructor
      · rintro ⟨r, h, rfl⟩; rw [(may_read text r).1 h]
      · rintro rfl; exact ⟨_, (may_read text _).2 rfl, rfl⟩

/-! ### rtcg-make-stms -/

theorem written_ok {r : Res Json} (h : (Program.written r).2 = .ok ()) : ∃ j, r = .ok j ∧ Json.write j = .ok (Program.written r).1 := by
  unfold Program.written at h ⊢
  cases r with
  | error e => cases h
  | ok j =>
    simp only at h ⊢
    cases hw : Json.write j with
    | error e => rw [hw] at h; cases h
    | ok text => exact ⟨j, rfl, hw⟩

theorem written_fail {r : Res Json} (h : (Program.written r).2 ≠ .ok ()) : (Program.written r).1 = [] := by
  unfold Program.written at h ⊢
  cases r with
  | error e => rfl
  | ok j =>
    simp only at h ⊢
    cases hw : Json.write j with
    | error e => rfl
    | ok text => rw [hw] at h; exact absurd rfl h

theorem may_write {input j : Json} (h : MayMakeStms input (.ok j)) : ∃ s, Json.write j = .ok s := by
  obtain ⟨_, _, _, _, _, stms, _, _, _, _, _, _, _, _, hj⟩ := may_ok h
  have := (JsonText.good_stmSuite hj).1
  exact ⟨_, JsonText.write_iff.2 ⟨(JsonText.nested_iff _ _).2 (by unfold Json.maxDepth; omega), rfl⟩⟩

/-- The two results of a program with the same input text. -/
theorem make_text {text : Str} {r r' : Res Json}
    (h : match Json.parse text with | .error e => r = .error e | .ok j => MayMakeStms j r)
    (h' : match Json.parse text with | .error e => r' = .error e | .ok j => MayMakeStms j r')
    (hok : (Program.written r).2 = .ok ()) :
    (Program.written r').2 = .ok () ∧ ∃ input j j', Json.parse text = .ok input ∧ Json.write j = .ok (Program.written r).1 ∧
      Json.write j' = .ok (Program.written r').1 ∧ SameButOrder j j' ∧ ((∀ s, Json.decodeSuite input = .ok s → OneTest s) → j = j') := by
  obtain ⟨j, rfl, hw⟩ := written_ok hok
  cases hp : Json.parse text with
  | error e => rw [hp] at h; cases h
  | ok input =>
    rw [hp] at h h'
    simp only at h h'
    obtain ⟨j', rfl, hs, h1⟩ := may_any h h'
    obtain ⟨s, hw'⟩ := may_write h'
    have : Program.written (.ok j') = (s, .ok ()) := by unfold Program.written; simp only [hw']
    rw [this]
    exact ⟨rfl, input, j, j', rfl, hw, hw', hs, h1⟩

/-- C113: rtcg-make-stms succeeds whatever the orders in which maps are visited, or fails whatever they are, writing nothing; and the
texts that it may write are those of JSON values that only differ in the order in which each machine lists its tests. -/
theorem C113_make_stms (T : TextLayer) (env : Env) (argv : List Str) (out out' : Str × Res Unit)
    (h : MayMakeStmsMain T env argv out) (h' : MayMakeStmsMain T env argv out') :
    (out.2 = .ok () ↔ out'.2 = .ok ()) ∧ (out.2 ≠ .ok () → out.1 = []) ∧
    (out.2 = .ok () → ∃ j j', Json.write j = .ok out.1 ∧ Json.write j' = .ok out'.1 ∧ SameButOrder j j') := by
  unfold MayMakeStmsMain MayRun at h h'
  cases hp : Cli.parseFileArgument argv 2 with
  | error e =>
    rw [hp] at h h'
    simp only at h h'
    subst h; subst h'
    exact ⟨Iff.rfl, fun _ => rfl, fun h => by cases h⟩
  | ok path =>
    rw [hp] at h h'
    simp only at h h'
    cases hr : Program.readFileOrStdin T env path with
    | error e =>
      rw [hr] at h h'
      simp only at h h'
      subst h; subst h'
      exact ⟨Iff.rfl, fun _ => rfl, fun h => by cases h⟩
    | ok text =>
      rw [hr] at h h'
      simp only at h h'
      obtain ⟨r, hm, rfl⟩ := h
      obtain ⟨r', hm', rfl⟩ := h'
      refine ⟨⟨fun h => (make_text hm hm' h).1, fun h => (make_text hm' hm h).1⟩, written_fail, fun h => ?_⟩
      obtain ⟨_, _, j, j', _, h1, h2, h3, _⟩ := make_text hm hm' h
      exact ⟨j, j', h1, h2, h3⟩

/-- C113: what the model of rtcg-make-stms does is one of the possibilities. -/
theorem C113_possible (T : TextLayer) (env : Env) (argv : List Str) : MayMakeStmsMain T env argv (Program.makeStms T env argv) := by
  unfold MayMakeStmsMain MayRun Program.makeStms
  cases Cli.parseFileArgument argv 2 with
  | error e => rfl
  | ok path =>
    simp only
    cases Program.readFileOrStdin T env path with
    | error e => rfl
    | ok text =>
      simp only
      cases Json.parse text with
      | error e => exact ⟨_, rfl, rfl⟩
      | ok j => exact ⟨_, may_program j, rfl⟩

/-- C113: for a suite whose trees each have one test, as rtcg-read-traces makes them, the text is the same whatever the orders. -/
theorem C113_one_test (T : TextLayer) (env : Env) (argv : List Str) (path text : Str) (input : Json) (s : Validate.Suite)
    (out out' : Str × Res Unit) (ha : InputArg argv path) (ht : Reads T env path text) (hp : Json.parse text = .ok input)
    (hd : Json.decodeSuite input = .ok s) (hone : OneTest s) (h : MayMakeStmsMain T env argv out) (h' : MayMakeStmsMain T env argv out')
    (hok : out.2 = .ok ()) : out' = out := by
  unfold MayMakeStmsMain MayRun at h h'
  rw [Programs.arg_iff.2 ha] at h h'
  simp only [Programs.reads_iff.2 ht] at h h'
  obtain ⟨r, hm, rfl⟩ := h
  obtain ⟨r', hm', rfl⟩ := h'
  obtain ⟨hok', input', j, j', h1, h2, h3, _, h4⟩ := make_text hm hm' hok
  rw [hp] at h1
  cases h1
  have hj := h4 fun s' hs' => by rw [hd] at hs'; cases hs'; exact hone
  subst hj
  rw [h2] at h3
  have h5 : (Program.written r).1 = (Program.written r').1 := Except.ok.inj h3
  exact Prod.ext h5.symm (hok'.trans hok.symm)

/-- C113: the two programs in a row, from traces to machines: whatever the orders in which either visits its maps, the text that comes
out is the same. -/
theorem C113_pipeline (T : TextLayer) (env : Env) (argv argv' : List Str) (file text : Str) (traces : List Forbidden) (mid : Str)
    (out out' : Str × Res Unit) (ha : InputArg argv file) (ha' : InputArg argv' c!"-") (hf : Reads T env file text) (hread : Forbidden.read text = some (.ok traces))
    (hn : ∀ f ∈ traces, ∀ e ∈ eventsOf f, e.channel.name ≠ []) (hmid : MayReadTracesMain T env argv (mid, .ok ()))
    (h : MayMakeStmsMain T { env with stdin := mid } argv' out) (h' : MayMakeStmsMain T { env with stdin := mid } argv' out')
    (hok : out.2 = .ok ()) : out' = out := by
  have hmid := (C113_read_traces T env argv _).1 hmid
  obtain ⟨named, j, s, vs, _, hwn, _, hj, hd, hv, hp⟩ := read_pipeline hread hn
  obtain ⟨path, text', j', ha2, hf', _, hj', hw⟩ := (C84_read_traces T env argv).2 mid |>.1 hmid.symm
  have e1 : path = file := by
    have h1 := Programs.arg_iff.2 ha
    rw [Programs.arg_iff.2 ha2] at h1; cases h1; rfl
  subst e1
  have e2 : text' = text := by
    have h1 := Programs.reads_iff.2 hf
    rw [Programs.reads_iff.2 hf'] at h1; cases h1; rfl
  subst e2
  rw [hj] at hj'
  cases hj'
  have hparse := C85_read_back j mid [] (C85_programs.1 _ _ hj) hw
  rw [List.append_nil] at hparse
  refine C113_one_test T { env with stdin := mid } argv' c!"-" mid j s out out' ha' (.inl ⟨rfl, rfl⟩) hparse hd ?_ h h' hok
  intro name root hroot t u ⟨p, n, _, hpn, ht⟩ ⟨q, n', _, hqn, hu⟩
  have hfs := ((C25_fullSuite_iff s (Json.decodeMap_wf hd) vs).1 hv).1
  rw [← hfs] at hroot
  obtain ⟨nt, hnt, e⟩ := List.mem_map.1 hroot
  obtain ⟨kt, _, rfl⟩ := List.mem_map.1 (hp.mem_iff.2 hnt)
  simp only [Prod.mk.injEq, Option.some.injEq] at e
  obtain ⟨rfl, rfl⟩ := e
  have h1 := (C17_expand_nodes _ _ _ _ hpn).1
  have h2 := (C17_expand_nodes _ _ _ _ hqn).1
  rw [h1] at ht
  rw [h2] at hu
  rw [List.mem_singleton.1 ht, List.mem_singleton.1 hu]

/-! ### what does depend on the order -/

/-- One tree with two tests. -/
def exOrderText : Str :=
  c!"{\"x\": {\"tests\": [\"t\", \"u\"], \"next\": [{\"tests\": [\"t\", \"u\"], \"outcome\": \"pass\", \"event\": \"b.out.2\", \"next\": [" ++
  c!"{\"tests\": [\"t\", \"u\"], \"outcome\": \"fail\"}]}]}}"

/-- The lists of tests of the machines, in a suite as JSON -/
def listed : Json → List (List Str)
  | .obj fs => fs.flatMap fun f => if f.1 = c!"tests" then (match f.2 with
      | .obj ms => ms.map fun m => match m.2 with
        | .obj gs => gs.flatMap fun g => if g.1 = c!"tests" then (match g.2 with
            | .arr xs => xs.map fun x => match x with
              | .str s => s
              | _ => []
            | _ => []) else []
        | _ => []
      | _ => []) else []
  | _ => []

def exOrderTree : Node := (Node.root [Node.testPoint ⟨⟨c!"b", .out⟩, .int 2⟩ [c!"t", c!"u"]]).mark [c!"t", c!"u"]

set_option maxRecDepth 200000 in
theorem exOrder_parse : ∃ input, Json.parse exOrderText = .ok input ∧ Json.decodeSuite input = .ok [(c!"x", some exOrderTree)] :=
  ⟨_, by rfl, by rfl⟩

def exOrderMachine (tests : List Str) : Stm :=
  match Builder.build Builder.zero ⟨exOrderTree⟩ with
  | some (.ok (_, m, _)) => { m with tests := tests.map fun t => (t, true) }
  | _ => ⟨[], [], []⟩

theorem exOrder_may (input : Json) (hd : Json.decodeSuite input = .ok [(c!"x", some exOrderTree)]) (tests : List Str)
    (hp : [c!"t", c!"u"].Perm tests) :
    MayMakeStms input (Json.encodeStmSuite ⟨(exOrderMachine tests).types, [(c!"x", exOrderMachine tests)]⟩) := by
  unfold MayMakeStms
  rw [hd]
  refine ⟨_, List.Perm.refl _, ?_⟩
  have hv : Validate.fullSuite [(c!"x", some exOrderTree)] = .ok [(c!"x", ⟨exOrderTree⟩)] := by rfl
  rw [hv]
  refine ⟨_, List.Perm.refl _, ?_⟩
  obtain ⟨b, hb⟩ : ∃ b, Builder.zero.buildMany [(c!"x", ⟨exOrderTree⟩)] = .ok (b, [(c!"x", exOrderMachine [c!"t", c!"u"])]) := ⟨_, by rfl⟩
  rw [hb]
  refine ⟨_, MapTo.refl StmTo.refl _, ?_⟩
  have hu : Builder.unifyTypes [(c!"x", exOrderMachine [c!"t", c!"u"])] = .ok (exOrderMachine [c!"t", c!"u"]).types := by rfl
  simp only [hu]
  refine ⟨⟨(exOrderMachine tests).types, [(c!"x", exOrderMachine tests)]⟩, ⟨List.Perm.refl _, _, List.Perm.refl _, .cons ⟨rfl, ?_⟩ .nil⟩, rfl⟩
  exact ⟨List.forall₂_same.2 fun _ _ => ⟨rfl, rfl, List.Perm.refl _⟩, List.Perm.refl _, hp.map (fun t => (t, true))⟩

/-- C113, not more: rtcg-make-stms lists the tests of a machine in the order of a map, so that for a tree with two tests there are two
texts it may write. -/
theorem C113_two_texts (T : TextLayer) (cwd : Loc) (fs : Fs) (prog : Str) : ∃ text out out',
    MayMakeStmsMain T ⟨cwd, fs, text⟩ [prog] (out, .ok ()) ∧ MayMakeStmsMain T ⟨cwd, fs, text⟩ [prog] (out', .ok ()) ∧ out ≠ out' := by
  obtain ⟨input, hp, hd⟩ := exOrder_parse
  obtain ⟨j, hj, lj⟩ : ∃ j, Json.encodeStmSuite ⟨(exOrderMachine [c!"t", c!"u"]).types, [(c!"x", exOrderMachine [c!"t", c!"u"])]⟩ = .ok j ∧
      listed j = [[c!"t", c!"u"]] := ⟨_, by rfl, by rfl⟩
  obtain ⟨j', hj', lj'⟩ : ∃ j, Json.encodeStmSuite ⟨(exOrderMachine [c!"u", c!"t"]).types, [(c!"x", exOrderMachine [c!"u", c!"t"])]⟩ = .ok j ∧
      listed j = [[c!"u", c!"t"]] := ⟨_, by rfl, by rfl⟩
  have h := exOrder_may input hd [c!"t", c!"u"] (List.Perm.refl _)
  have h' := exOrder_may input hd [c!"u", c!"t"] (List.Perm.swap _ _ _)
  rw [hj] at h
  rw [hj'] at h'
  obtain ⟨t, ht⟩ := may_write h
  obtain ⟨t', ht'⟩ := may_write h'
  have run : ∀ {j t}, MayMakeStms input (.ok j) → Json.write j = .ok t → MayMakeStmsMain T ⟨cwd, fs, exOrderText⟩ [prog] (t, .ok ()) := by
    intro j t h ht
    refine ⟨.ok j, ?_, ?_⟩
    · simp only [hp]; exact h
    · unfold Program.written; simp only [ht]
  refine ⟨exOrderText, t, t', run h ht, run h' ht', fun e => ?_⟩
  have r := C85_read_back j t [] (JsonText.good_stmSuite hj).2 ht
  have r' := C85_read_back j' t' [] (JsonText.good_stmSuite hj').2 ht'
  rw [← e, r] at r'
  have e' : j = j' := Except.ok.inj r'
  rw [e', lj'] at lj
  exact absurd lj (by decide)

set_option maxRecDepth 200000 in
theorem exExit_parse : ∃ input, Json.parse c!"{\"a\": null, \"b\": {\"outcome\": \"pass\"}}" = .ok input ∧
    Json.decodeSuite input = .ok [(c!"a", none), (c!"b", some ⟨[], [], .pass, none, []⟩)] := ⟨_, by rfl, by rfl⟩

/-- C113, not more: if one test is `null` and another is invalid, rtcg-make-stms fails whatever the order, but the order decides whether it
reports an error (and exits with 1) or panics (and exits with 2). -/
theorem C113_two_exit_codes (T : TextLayer) (cwd : Loc) (fs : Fs) (prog : Str) : ∃ text out out',
    MayMakeStmsMain T ⟨cwd, fs, text⟩ [prog] out ∧ MayMakeStmsMain T ⟨cwd, fs, text⟩ [prog] out' ∧
    Program.exitCode out.2 = 1 ∧ Program.exitCode out'.2 = 2 := by
  obtain ⟨input, hp, hd⟩ := exExit_parse
  have run : ∀ s' f, List.Perm [(c!"a", none), (c!"b", some (⟨[], [], .pass, none, []⟩ : Node))] s' → Validate.fullSuite s' = .error f →
      MayMakeStmsMain T ⟨cwd, fs, c!"{\"a\": null, \"b\": {\"outcome\": \"pass\"}}"⟩ [prog] ([], .error f) := by
    intro s' f hs' hf
    refine ⟨.error f, ?_, rfl⟩
    simp only [hp]
    unfold MayMakeStms
    rw [hd]
    refine ⟨s', hs', ?_⟩
    rw [hf]
  obtain ⟨e, he⟩ : ∃ e, Validate.fullSuite [(c!"b", some (⟨[], [], .pass, none, []⟩ : Node)), (c!"a", none)] = .error (.err e) := ⟨_, by rfl⟩
  exact ⟨_, _, _, run _ _ (List.Perm.swap _ _ _) he, run _ _ (List.Perm.refl _) (by rfl), rfl, rfl⟩

/-! ### an example -/

set_option maxRecDepth 100000 in
/-- The hypotheses of `C113_pipeline` are met by the example in the repository; so, whatever the orders, the programs write its `tests.json`
and then its `stms.json`. -/
example (T : TextLayer) (cwd : Loc) (fs : Fs) (mid : Str) (out : Str × Res Unit)
    (hmid : MayReadTracesMain T ⟨cwd, fs, ExampleFiles.traces⟩ [c!"rtcg-read-traces"] (mid, .ok ()))
    (h : MayMakeStmsMain T ⟨cwd, fs, mid⟩ [c!"rtcg-make-stms"] out) : mid = ExampleFiles.testsJson ∧ out = (ExampleFiles.stmsJson, .ok ()) := by
  have e := (C113_read_traces T _ _ _).1 hmid
  rw [Conformance.bmon_tests] at e
  have hm : mid = ExampleFiles.testsJson := congrArg Prod.fst e
  subst hm
  have hread : ∃ traces, Forbidden.read ExampleFiles.traces = some (.ok traces) ∧
      (∀ f ∈ traces, ∀ e ∈ eventsOf f, e.channel.name ≠ []) ∧ traces.length = 21 := by
    have hk : (match Forbidden.read ExampleFiles.traces with
      | some (.ok traces) => decide ((∀ f ∈ traces, ∀ e ∈ eventsOf f, e.channel.name ≠ []) ∧ traces.length = 21)
      | _ => false) = true := by decide +kernel
    cases hr : Forbidden.read ExampleFiles.traces with
    | none => rw [hr] at hk; cases hk
    | some r =>
      rw [hr] at hk
      cases r with
      | error e => cases hk
      | ok traces => exact ⟨traces, rfl, of_decide_eq_true hk⟩
  obtain ⟨traces, hr, hn, _⟩ := hread
  have hp := C113_possible T ⟨cwd, fs, ExampleFiles.testsJson⟩ [c!"rtcg-make-stms"]
  rw [Conformance.bmon_stms] at hp
  exact ⟨rfl, C113_pipeline T ⟨cwd, fs, ExampleFiles.traces⟩ [c!"rtcg-read-traces"] [c!"rtcg-make-stms"] c!"-" _ traces _ _ _ (.inl ⟨_, rfl, rfl⟩) (.inl ⟨_, rfl, rfl⟩)
    (.inl ⟨rfl, rfl⟩) hr hn hmid hp h rfl⟩

end Rtcg
