import Verif.Proofs.CppAnimate

/-
Running the generated program: the main loop for animation, and main.
-/

namespace Rtcg

namespace Spec

namespace Cpp

namespace Sem

open Templates Rtcg.Cpp Tmpl Tree

section

variable {S : Src} {L : Lib} {fuel n : Nat} {st : St}

/-! ### outputs -/

theorem fits_type {t : RsType} {x : Value} (h : FitsType t x) :
    S.prog.cls (typeE t).name = none ∧ ∃ v, initial L (typeE t) = some v := by
  cases x with
  | none => exact absurd h id
  | enum s =>
    have : typeE t = ty [c!"std", c!"string"] := if_pos h
    rw [this]
    exact ⟨cls_plain (by decide) (by decide) (by decide), _, rfl⟩
  | int i =>
    rcases h with h | ⟨h, h0⟩
    · obtain ⟨h1, h2⟩ := kinds.1 h
      have : typeE t = ty [c!"int"] := by unfold typeE; rw [h1, h2, h]; rfl
      rw [this]
      exact ⟨cls_plain (by decide) (by decide) (by decide), _, rfl⟩
    · have h1 := kinds.2 h
      have : typeE t = ty [c!"unsigned int"] := by unfold typeE; rw [h1, h]; rfl
      rw [this]
      exact ⟨cls_plain (by decide) (by decide) (by decide), _, rfl⟩

theorem setIn_same {x : Str} {T : CType} {v v' : Val} {ls : List (Str × CType × Val)} : setIn x v' ((x, T, v) :: ls) = (x, T, v') :: ls := by
  rw [setIn, if_pos rfl]

theorem drop_one {α : Type} {x : α} {ls : List α} : (x :: ls).drop ((x :: ls).length - ls.length) = ls := by
  have : (x :: ls).length - ls.length = 1 := by simp
  rw [this]
  rfl

/-- An output: its value is read, and handed over -/
theorem exec_out (hS : Setup S L) (hv : S.v = .animate) {a : AggregateSet} {x : Value} (h1 : HasCallback S.m (.output a.channel x)) (hx : CanType L S.U S.ctx a.channel x)
    (hl : getLocal st c!"stm" = some (ty [SM], .obj machineAt [SM])) {c : Harness.Config} (hc : Core S machineAt c st) {rest : List Str}
    (hi : st.input = x.stringValue :: rest) :
    ∃ st', execS (cx S L fuel (n + 4) [c!"main"] none) (outChoice S.U S.ctx a) st = .ok .next st' ∧
      Moves S L c (Harness.step S.m c (.output a.channel x)) st st' ∧ st'.loc = st.loc ∧ st'.input = rest := by
  let C := cx S L fuel (n + 4) [c!"main"] none
  obtain ⟨⟨t, ht, hf⟩, h3⟩ := hx
  have hT : (baseOf S.ctx a.channel.name).elim (ty []) typeE = typeE t := by
    have : baseOf S.ctx a.channel.name = some t := ht
    rw [this]; rfl
  obtain ⟨hcls, v0, hv0⟩ := fits_type (S := S) (L := L) hf
  let st1 : St := { st with loc := (c!"in", typeE t, v0) :: st.loc }
  have r1 : execS C (.decl (typeE t) c!"in") st = .ok .next st1 := exec_decl hcls hv0
  let st2 : St := { st1 with input := rest, loc := (c!"in", typeE t, valueVal x) :: st.loc }
  have r2 : execS C (readS c!"in") st1 = .ok .next st2 := by
    have hg : getLocal st1 c!"in" = some (typeE t, v0) := by
      show getLocal { st with loc := (c!"in", typeE t, v0) :: st.loc } c!"in" = _
      rw [getLocal_cons, if_pos rfl]
    rw [read_ok hg hi (read_value hf)]
    show Cpp.Res.ok _ { st1 with input := rest, loc := setIn c!"in" (valueVal x) ((c!"in", typeE t, v0) :: st.loc) } = _
    rw [setIn_same]
  have h1' := h1
  obtain ⟨⟨s, hs, ts, hts, hch⟩, _⟩ := h1'
  have hk := (hS.lib.convert s hs ts hts).1
  have hcl := (hS.names.convert s hs ts hts).1
  rw [hch] at hk hcl
  have hg2 : getLocal st2 c!"in" = some (typeE t, valueVal x) := by
    show getLocal { st2 with loc := (c!"in", typeE t, valueVal x) :: st.loc } c!"in" = _
    rw [getLocal_cons, if_pos rfl]
  have hconv := call_conv (n := n + 4) (fuel := fuel) (st := st2) (st1 := st2) (v := valueVal x) (e := nm c!"in") hS (q := [c!"main"]) (.inr ⟨c!"main", rfl⟩)
      (this := none) (.inl (convertTo_head S.U a.channel.name)) hk hcl (nm_local hg2)
  have hq := conv_quiet S.v (.inl (convertTo_head S.U a.channel.name)) [valueVal x]
  have hstm : getLocal st2 c!"stm" = some (ty [SM], .obj machineAt [SM]) := by
    show getLocal { st2 with loc := (c!"in", typeE t, valueVal x) :: st.loc } c!"stm" = _
    rw [getLocal_cons, if_neg (by decide)]
    exact hl
  obtain ⟨st3, r3, m3, l3, i3⟩ := exec_callback (n := n) (fuel := fuel) (st := st2) hS hv hstm (c := c) (hc.congr rfl)
    (cb := .output a.channel x) h1 (evalList_cons hconv evalList_nil) (Steps.one hq.1 hq.2) rfl ⟨_, rfl, h3⟩
  have g2 : Goes S.v st { st2 with input := st.input } [] false := ⟨rfl, rfl, [], by simp [st2, st1], rfl, rfl⟩
  refine ⟨{ st3 with loc := st.loc }, ?_, ?_, rfl, i3⟩
  · unfold outChoice
    rw [hT]
    rw [execS]
    refine inScope_ok (st' := st3) ?_ ?_
    · exact (execSs_cons r1).trans ((execSs_cons r2).trans (execSs_one r3))
    · rw [l3]
      exact drop_one
  · obtain ⟨hc3, new, sent, e1, e2, e3⟩ := m3
    exact ⟨hc3.congr rfl, new, sent, e1, e2, e3⟩

/-- The output with a name -/
def outStep (m : Stm) (c : Harness.Config) (w : Str) (x : Value) (l : List AggregateSet) : Harness.Config :=
  (l.find? (fun a => a.channel.name = w)).elim c (fun a => Harness.step m c (.output a.channel x))

theorem exec_outs (hS : Setup S L) (hv : S.v = .animate) {w : Str} {x : Value} (l : List AggregateSet)
    (hx : ∀ a ∈ l, a.channel.name = w → HasCallback S.m (.output a.channel x) ∧ CanType L S.U S.ctx a.channel x) {c : Harness.Config} (hch : Chosen st w c.status)
    (hc : Core S machineAt c st) {rest : List Str} (hi : st.input = (if l.any (fun a => a.channel.name = w) then [x.stringValue] else []) ++ rest) :
    ∃ st', execS (cx S L fuel (n + 4) [c!"main"] none) (outChoices S.U S.ctx l) st = .ok .next st' ∧
      Moves S L c (outStep S.m c w x l) st st' ∧ st'.loc = st.loc ∧ st'.input = rest := by
  induction l with
  | nil =>
    obtain ⟨st', r, s, m⟩ := exec_say (w := c!"Sorry, try again.\n") (fuel := fuel) (n := n + 4) (st := st) hS
    exact ⟨st', r, (Moves.nothing hc).then s.goes m, s.loc, s.input.trans hi⟩
  | cons a l ih =>
    rw [outChoices, execS_ite (eval_choiceIs hch)]
    by_cases h : a.channel.name = w
    · have e1 : (w == a.channel.name) = true := by simp [h]
      have e2 : outStep S.m c w x (a :: l) = Harness.step S.m c (.output a.channel x) := by
        unfold outStep
        rw [List.find?_cons]
        simp [h]
      rw [e1, e2, if_pos rfl]
      have hi' : st.input = x.stringValue :: rest := by rw [hi, List.any_cons]; simp [h]
      obtain ⟨st', r, m, l', i⟩ := exec_out (n := n) (fuel := fuel) hS hv (hx a (List.mem_cons_self ..) h).1 (hx a (List.mem_cons_self ..) h).2 hch.stm hc hi'
      exact ⟨st', inScope_same r l', m, l', i⟩
    · have e1 : (w == a.channel.name) = false := by simpa using Ne.symm h
      have e2 : outStep S.m c w x (a :: l) = outStep S.m c w x l := by
        unfold outStep
        rw [List.find?_cons]
        simp [h]
      rw [e1, e2, if_neg (by simp)]
      have hi' : st.input = (if l.any (fun a => a.channel.name = w) then [x.stringValue] else []) ++ rest := by
        rw [hi, List.any_cons]; simp [h]
      obtain ⟨st', r, m, l', i⟩ := ih (fun a ha => hx a (List.mem_cons_of_mem _ ha)) hi'
      exact ⟨st', inScope_same r l', m, l', i⟩

/-! ### commands -/

theorem animateStep_eq (m : Stm) (c : Harness.Config) (w : Str) (x : Value) : Harness.animateStep m c w x =
    if w = c!"timeout" then Harness.step m c .timeout
    else if (TransitionContext.make m).firstStateHasIn && (w = c!"ready" && c.status = .waitStart) then Harness.step m c .start
    else if (TransitionContext.make m).hasIn && (w = c!"accept" && c.status = .waitIn) then Harness.step m c .accepted
    else outStep m c w x (TransitionContext.make m).out := by
  unfold Harness.animateStep outStep
  simp only [Bool.and_eq_true, decide_eq_true_eq]
  cases (TransitionContext.make m).out.find? (fun a => a.channel.name = w) <;> rfl

/-- A command without a value -/
theorem exec_command (hS : Setup S L) (hv : S.v = .animate) {w : Str} {c : Harness.Config} (hch : Chosen st w c.status)
    (hc : Core S machineAt c st) {cb : Harness.Callback} (hcb : HasCallback S.m cb) (ha : ArgsOf L S.U S.v cb []) :
    ∃ st', execS (cx S L fuel (n + 4) [c!"main"] none) (.expr (mcall c!"stm" (methodOf cb) [])) st = .ok .next st' ∧
      Moves S L c (Harness.step S.m c cb) st st' ∧ st'.loc = st.loc ∧ st'.input = st.input :=
  exec_callback hS hv hch.stm hc hcb evalList_nil Steps.refl rfl ha

theorem exec_choices (hS : Setup S L) (hv : S.v = .animate) {w : Str × Value}
    (hx : ∀ a ∈ S.tc.out, a.channel.name = w.1 → HasCallback S.m (.output a.channel w.2) ∧ CanType L S.U S.ctx a.channel w.2) {c : Harness.Config} (hch : Chosen st w.1 c.status)
    (hc : Core S machineAt c st) {rest : List Str} (hi : w.1 :: st.input = typedOne S.m c w ++ rest) :
    ∃ st', execS (cx S L fuel (n + 4) [c!"main"] none) (choices S.U S.tc S.ctx) st = .ok .next st' ∧
      Moves S L c (Harness.animateStep S.m c w.1 w.2) st st' ∧ st'.loc = st.loc ∧ st'.input = rest := by
  have hlen : ∀ cb, (∀ ch y, cb ≠ Harness.Callback.output ch y) → ArgsOf L S.U S.v cb [] := by
    intro cb h
    cases cb with
    | output ch y => exact absurd rfl (h ch y)
    | timeout => show 0 = if S.v = .ros then 1 else 0; rw [hv]; rfl
    | start => show 0 = if S.v = .ros then 1 else 0; rw [hv]; rfl
    | accepted => show 0 = if S.v = .ros then 1 else 0; rw [hv]; rfl
  have htc : TransitionContext.make S.m = S.tc := rfl
  rw [animateStep_eq]
  unfold typedOne isCommand at hi
  rw [htc] at hi ⊢
  unfold choices
  rw [execS_ite (eval_choiceIs hch)]
  by_cases h1 : w.1 = c!"timeout"
  · have e : (w.1 == c!"timeout") = true := by simp [h1]
    rw [e, if_pos rfl, if_pos h1]
    obtain ⟨st', r, m, l, i⟩ := exec_command (cb := .timeout) (n := n) (fuel := fuel) hS hv hch hc trivial (hlen _ (by simp))
    refine ⟨st', inScope_same r l, m, l, ?_⟩
    rw [i]
    simpa [h1] using hi
  have e : (w.1 == c!"timeout") = false := by simpa using h1
  rw [e, if_neg (by simp), if_neg h1]
  suffices h : ∃ st', execS (cx S L fuel (n + 4) [c!"main"] none) (readyChoice S.U S.tc S.ctx) st = .ok .next st' ∧
      Moves S L c (if S.tc.firstStateHasIn && (w.1 = c!"ready" && c.status = .waitStart) then Harness.step S.m c .start
        else if S.tc.hasIn && (w.1 = c!"accept" && c.status = .waitIn) then Harness.step S.m c .accepted
        else outStep S.m c w.1 w.2 S.tc.out) st st' ∧ st'.loc = st.loc ∧ st'.input = rest by
    obtain ⟨st', r, m, l, i⟩ := h
    exact ⟨st', inScope_same r l, m, l, i⟩
  have hout : (S.tc.hasIn && (w.1 = c!"accept" && c.status = .waitIn)) = false →
      (S.tc.firstStateHasIn && (w.1 = c!"ready" && c.status = .waitStart)) = false →
      ∃ st', execS (cx S L fuel (n + 4) [c!"main"] none) (outChoices S.U S.ctx S.tc.out) st = .ok .next st' ∧
      Moves S L c (outStep S.m c w.1 w.2 S.tc.out) st st' ∧ st'.loc = st.loc ∧ st'.input = rest := by
    intro h3 h2
    refine exec_outs hS hv S.tc.out hx hch hc ?_
    rw [h2, h3] at hi
    have : decide (w.1 = c!"timeout") = false := by simpa using h1
    rw [this] at hi
    cases hany : S.tc.out.any (fun a => a.channel.name = w.1) with
    | true => rw [hany] at hi; simpa using hi
    | false => rw [hany] at hi; simpa using hi
  have hacc : (S.tc.firstStateHasIn && (w.1 = c!"ready" && c.status = .waitStart)) = false →
      ∃ st', execS (cx S L fuel (n + 4) [c!"main"] none) (acceptChoice S.U S.tc S.ctx) st = .ok .next st' ∧
      Moves S L c (if S.tc.hasIn && (w.1 = c!"accept" && c.status = .waitIn) then Harness.step S.m c .accepted
        else outStep S.m c w.1 w.2 S.tc.out) st st' ∧ st'.loc = st.loc ∧ st'.input = rest := by
    intro h2
    unfold acceptChoice
    by_cases hh : S.tc.hasIn = true
    · rw [if_pos hh]
      have eb : evalE (cx S L fuel (n + 4) [c!"main"] none) (.and (choiceIs c!"accept") (statusIs c!"WAIT_IN")) st =
          .ok (.bool ((w.1 == c!"accept") && decide (c.status = Status.waitIn))) st := eval_both (y := .waitIn) hch
      rw [execS_ite eb]
      have e3 : (S.tc.hasIn && (decide (w.1 = c!"accept") && decide (c.status = Status.waitIn))) = ((w.1 == c!"accept") && decide (c.status = Status.waitIn)) := by
        rw [hh, Bool.true_and, beq_eq_decide]
      cases h3 : ((w.1 == c!"accept") && decide (c.status = Status.waitIn)) with
      | true =>
        rw [if_pos rfl]
        rw [if_pos (e3.trans h3)]
        obtain ⟨st', r, m, l, i⟩ := exec_command (cb := .accepted) (n := n) (fuel := fuel) hS hv hch hc ((C39_hasIn S.m).2.1 hh) (hlen _ (by simp))
        refine ⟨st', inScope_same r l, m, l, ?_⟩
        rw [i]
        rw [show (S.tc.hasIn && (decide (w.1 = c!"accept") && decide (c.status = Status.waitIn))) = true from e3.trans h3] at hi
        simpa using hi
      | false =>
        rw [if_neg (by simp)]
        rw [if_neg (by rw [e3.trans h3]; simp)]
        obtain ⟨st', r, m, l, i⟩ := hout (e3.trans h3) h2
        exact ⟨st', inScope_same r l, m, l, i⟩
    · have hh' : S.tc.hasIn = false := by simpa using hh
      rw [if_neg hh]
      rw [if_neg (by rw [hh']; simp)]
      exact hout (by rw [hh']; rfl) h2
  unfold readyChoice
  by_cases hh : S.tc.firstStateHasIn = true
  · rw [if_pos hh]
    have eb : evalE (cx S L fuel (n + 4) [c!"main"] none) (.and (choiceIs c!"ready") (statusIs c!"WAIT_START")) st =
        .ok (.bool ((w.1 == c!"ready") && decide (c.status = Status.waitStart))) st := eval_both (y := .waitStart) hch
    rw [execS_ite eb]
    have e3 : (S.tc.firstStateHasIn && (decide (w.1 = c!"ready") && decide (c.status = Status.waitStart))) = ((w.1 == c!"ready") && decide (c.status = Status.waitStart)) := by
      rw [hh, Bool.true_and, beq_eq_decide]
    cases h3 : ((w.1 == c!"ready") && decide (c.status = Status.waitStart)) with
    | true =>
      rw [if_pos rfl]
      rw [if_pos (e3.trans h3)]
      obtain ⟨st', r, m, l, i⟩ := exec_command (cb := .start) (n := n) (fuel := fuel) hS hv hch hc ((C39_firstStateHasIn S.m).1 hh) (hlen _ (by simp))
      refine ⟨st', inScope_same r l, m, l, ?_⟩
      rw [i]
      rw [show (S.tc.firstStateHasIn && (decide (w.1 = c!"ready") && decide (c.status = Status.waitStart))) = true from e3.trans h3] at hi
      simpa using hi
    | false =>
      rw [if_neg (by simp)]
      rw [if_neg (by rw [e3.trans h3]; simp)]
      obtain ⟨st', r, m, l, i⟩ := hacc (e3.trans h3)
      exact ⟨st', inScope_same r l, m, l, i⟩
  · have hh' : S.tc.firstStateHasIn = false := by simpa using hh
    rw [if_neg hh]
    rw [if_neg (by rw [hh']; simp)]
    exact hacc (by rw [hh']; rfl)

theorem report_quiet {U : Unicode} {v : Variant} {name : Str} {tests : List Str} {c : Harness.Config} :
    (report U v name tests c).filter (isSend v) = [] := by
  rw [List.filter_eq_nil_iff]
  intro e he
  unfold report at he
  rw [List.mem_append] at he
  rcases he with he | he
  · simp only [List.mem_cons, List.not_mem_nil, or_false] at he
    rcases he with rfl | rfl
    · rw [(logEff_quiet rfl).1]; simp
    · rw [(logEff_quiet rfl).1]; simp
  · obtain ⟨t, _, rfl⟩ := List.mem_map.1 he
    rw [(logEff_quiet rfl).1]
    simp

/-! ### the loop -/

/-- What happens for the words that are typed -/
def goOn (m : Stm) (c : Harness.Config) (ws : List (Str × Value)) : Harness.Config :=
  ws.foldl (fun c w => if c.status.isRunning then Harness.animateStep m c w.1 w.2 else c) c

theorem goOn_cons {m : Stm} {c : Harness.Config} {w : Str × Value} {ws : List (Str × Value)} (h : c.status.isRunning = true) :
    goOn m c (w :: ws) = goOn m (Harness.animateStep m c w.1 w.2) ws := by
  unfold goOn
  rw [List.foldl_cons, if_pos h]

theorem goOn_done {m : Stm} {c : Harness.Config} (h : c.status.isRunning = false) (ws : List (Str × Value)) : goOn m c ws = c := by
  induction ws with
  | nil => rfl
  | cons w ws ih =>
    have : goOn m c (w :: ws) = goOn m c ws := by
      unfold goOn
      rw [List.foldl_cons, if_neg (by rw [h]; simp)]
    rw [this, ih]

/-- The body of the loop -/
def loopBody (S : Src) : Stmt :=
  .block (stmtsOf (prompts S.tc S.ctx ++ [.decl (ty [c!"std", c!"string"]) c!"choice", readS c!"choice", choices S.U S.tc S.ctx]))

/-- What the loop depends on -/
structure Looping (st : St) (x : Status) : Prop where
  s : getLocal st c!"s" = some (auto, statusVal x)
  stm : getLocal st c!"stm" = some (ty [SM], .obj machineAt [SM])

/-- Prompts, and the variable for what is typed -/
theorem exec_prompts (hS : Setup S L) {x : Status} (hl : Looping st x) :
    ∃ st', execSs (cx S L fuel n [c!"main"] none) (stmtsOf (prompts S.tc S.ctx ++ [.decl (ty [c!"std", c!"string"]) c!"choice"])) st = .ok .next st' ∧
      Goes S.v st st' [] false ∧ st'.mem = st.mem ∧ st'.loc = (c!"choice", ty [c!"std", c!"string"], .str []) :: st.loc := by
  obtain ⟨st1, r1, s1, m1⟩ := says_list (S := S) (C := cx S L fuel n [c!"main"] none) (prompts S.tc S.ctx) (says_prompts hS) hl.s
  have r2 : execS (cx S L fuel n [c!"main"] none) (.decl (ty [c!"std", c!"string"]) c!"choice") st1 =
      .ok .next { st1 with loc := (c!"choice", ty [c!"std", c!"string"], .str []) :: st1.loc } :=
    exec_decl (cls_plain (by decide) (by decide) (by decide)) rfl
  refine ⟨_, execSs_app r1 (execSs_one r2), s1.goes.loc _, m1, ?_⟩
  show _ :: st1.loc = _
  rw [s1.loc]

theorem body_wait (hS : Setup S L) {x : Status} (hl : Looping st x) (hi : st.input = []) :
    ∃ st', inScope (execS (cx S L fuel n [c!"main"] none) (loopBody S)) st = .wait st' ∧ Goes S.v st st' [] false ∧ st'.mem = st.mem := by
  obtain ⟨st1, r1, g1, m1, l1⟩ := exec_prompts (n := n) (fuel := fuel) hS hl
  have hg : getLocal st1 c!"choice" = some (ty [c!"std", c!"string"], .str []) := by
    have e : getLocal st1 c!"choice" = getLocal { st with loc := (c!"choice", ty [c!"std", c!"string"], .str []) :: st.loc } c!"choice" := getLocal_eq l1
    rw [e, getLocal_cons, if_pos rfl]
  have r2 : execS (cx S L fuel n [c!"main"] none) (readS c!"choice") st1 = .wait st1 := read_wait hg (g1.input.trans hi)
  refine ⟨st1, ?_, g1, m1⟩
  have hb : execSs (cx S L fuel n [c!"main"] none)
      (stmtsOf ((prompts S.tc S.ctx ++ [.decl (ty [c!"std", c!"string"]) c!"choice"]) ++ [readS c!"choice", choices S.U S.tc S.ctx])) st = .wait st1 :=
    execSs_app r1 (execSs_wait r2)
  rw [List.append_assoc] at hb
  have hx : execS (cx S L fuel n [c!"main"] none) (loopBody S) st = .wait st1 := by
    unfold loopBody
    rw [execS]
    unfold inScope
    simp only [List.singleton_append] at hb
    rw [hb]
  unfold inScope
  rw [hx]

theorem body_goes (hS : Setup S L) (hv : S.v = .animate) {w : Str × Value}
    (hx : ∀ a ∈ S.tc.out, a.channel.name = w.1 → HasCallback S.m (.output a.channel w.2) ∧ CanType L S.U S.ctx a.channel w.2) {c : Harness.Config} (hl : Looping st c.status)
    (hc : Core S machineAt c st) {rest : List Str} (hi : st.input = typedOne S.m c w ++ rest) :
    ∃ st', inScope (execS (cx S L fuel (n + 4) [c!"main"] none) (loopBody S)) st = .ok .next st' ∧
      Moves S L c (Harness.animateStep S.m c w.1 w.2) st st' ∧ st'.loc = st.loc ∧ st'.input = rest := by
  obtain ⟨st1, r1, g1, m1, l1⟩ := exec_prompts (n := n + 4) (fuel := fuel) hS hl
  have hg : ∀ x, getLocal st1 x = getLocal { st with loc := (c!"choice", ty [c!"std", c!"string"], .str []) :: st.loc } x := fun x => getLocal_eq l1
  have hg1 : getLocal st1 c!"choice" = some (ty [c!"std", c!"string"], .str []) := by
    rw [hg, getLocal_cons, if_pos rfl]
  obtain ⟨more, hmore⟩ : ∃ more, typedOne S.m c w = w.1 :: more := by
    unfold typedOne
    split
    · exact ⟨_, rfl⟩
    · split <;> exact ⟨_, rfl⟩
  have hi1 : st1.input = w.1 :: (more ++ rest) := by rw [g1.input, hi, hmore]; rfl
  let st2 : St := { st1 with input := more ++ rest, loc := (c!"choice", ty [c!"std", c!"string"], .str w.1) :: st.loc }
  have r2 : execS (cx S L fuel (n + 4) [c!"main"] none) (readS c!"choice") st1 = .ok .next st2 := by
    rw [read_ok hg1 hi1 (v' := .str w.1) rfl, l1, setIn_same]
  have hch : Chosen st2 w.1 c.status := by
    have hg2 : ∀ x, getLocal st2 x = getLocal { st with loc := (c!"choice", ty [c!"std", c!"string"], .str w.1) :: st.loc } x := fun x => getLocal_eq rfl
    refine ⟨?_, ?_, ?_⟩
    · rw [hg2, getLocal_cons, if_pos rfl]
    · rw [hg2, getLocal_cons, if_neg (by decide)]
      exact hl.s
    · rw [hg2, getLocal_cons, if_neg (by decide)]
      exact hl.stm
  have hi2 : w.1 :: st2.input = typedOne S.m c w ++ rest := by rw [hmore]; rfl
  obtain ⟨st3, r3, m3, l3, i3⟩ := exec_choices (n := n) (fuel := fuel) hS hv hx hch (hc.congr m1) hi2
  have hb : execSs (cx S L fuel (n + 4) [c!"main"] none)
      (stmtsOf ((prompts S.tc S.ctx ++ [.decl (ty [c!"std", c!"string"]) c!"choice"]) ++ [readS c!"choice", choices S.U S.tc S.ctx])) st =
      .ok .next st3 := execSs_app r1 ((execSs_cons r2).trans (execSs_one r3))
  rw [List.append_assoc] at hb
  have hxx : execS (cx S L fuel (n + 4) [c!"main"] none) (loopBody S) st = .ok .next { st3 with loc := st.loc } := by
    unfold loopBody
    rw [execS]
    refine inScope_ok hb ?_
    rw [l3]
    exact drop_one
  refine ⟨{ st3 with loc := st.loc }, inScope_same hxx rfl, ?_, rfl, i3⟩
  refine Moves.loc ?_ _
  obtain ⟨hc3, new, sent, e1, e2, e3⟩ := m3
  obtain ⟨_, _, n', f1, f2, _⟩ := g1
  refine ⟨hc3, n' ++ new, sent, ?_, by rw [List.filter_append, f2, e2]; rfl, e3⟩
  rw [e1]
  show st1.eff ++ new = _
  rw [f1, List.append_assoc]

def loopCond (S : Src) (L : Lib) (fuel n : Nat) : M Bool := do
  let v ← evalE (cx S L fuel n [c!"main"] none) (running (nm c!"s"))
  truth v

def loopStep (S : Src) (L : Lib) (fuel n : Nat) : M Unit := do
  let _ ← evalE (cx S L fuel n [c!"main"] none) (.assign (nm c!"s") getStatus)
  M.ret ()

def loopIt (S : Src) (L : Lib) (fuel n : Nat) : Nat → M Flow :=
  iterate (loopCond S L fuel n) (loopStep S L fuel n) (inScope (execS (cx S L fuel n [c!"main"] none) (loopBody S)))

theorem loopIt_succ (k : Nat) : loopIt S L fuel n (k + 1) = M.bind (loopCond S L fuel n) (fun b =>
    if b then M.bind (inScope (execS (cx S L fuel n [c!"main"] none) (loopBody S))) (fun f => match f with
      | .ret v => M.ret (.ret v)
      | .brk => M.ret .next
      | .next => M.bind (loopStep S L fuel n) (fun _ => loopIt S L fuel n k))
    else M.ret .next) := rfl

/-- The local variables in the loop -/
def locals (x : Status) : List (Str × CType × Val) := [(c!"s", auto, statusVal x), stmLoc]

theorem looping_of {x : Status} (h : st.loc = locals x) : Looping st x := by
  refine ⟨?_, ?_⟩ <;>
  · unfold getLocal
    rw [h]
    rfl

theorem cond_run {x : Status} (h : Looping st x) : loopCond S L fuel (n + 1) st = .ok x.isRunning st := by
  unfold loopCond
  rw [bind_eq, bind_ok (eval_running (.inr ⟨_, rfl⟩) (nm_local h.s))]
  rfl

theorem step_run (hS : Setup S L) {c : Harness.Config} {x : Status} (h : st.loc = locals x) (hc : Core S machineAt c st) :
    loopStep S L fuel (n + 1) st = .ok () { st with loc := locals c.status } := by
  have hl := looping_of h
  unfold loopStep
  rw [bind_eq, bind_ok (assign_local (eval_getStatus hS hl.stm hc.status) hl.s), h]
  rfl

theorem run_loop (hS : Setup S L) (hv : S.v = .animate) (ws : List (Str × Value)) (k : Nat) (hk : ws.length < k)
    (hx : ∀ w ∈ ws, ∀ a ∈ S.tc.out, a.channel.name = w.1 → HasCallback S.m (.output a.channel w.2) ∧ CanType L S.U S.ctx a.channel w.2) {c : Harness.Config}
    (hl : st.loc = locals c.status) (hc : Core S machineAt c st) {rest : List Str} (hi : st.input = typed S.m c ws ++ rest)
    (hr : (goOn S.m c ws).status.isRunning = true → rest = []) :
    ∃ st', loopIt S L fuel (n + 4) k st = (if (goOn S.m c ws).status.isRunning then .wait st' else .ok .next st') ∧
      Moves S L c (goOn S.m c ws) st st' ∧ st'.input = rest ∧
      ((goOn S.m c ws).status.isRunning = false → st'.loc = locals (goOn S.m c ws).status) := by
  induction ws generalizing st c k with
  | nil =>
    obtain ⟨k, rfl⟩ : ∃ j, k = j + 1 := ⟨k - 1, by simp at hk; omega⟩
    have hlo := looping_of hl
    have hg : goOn S.m c [] = c := rfl
    rw [hg] at hr ⊢
    rw [loopIt_succ, bind_ok (cond_run hlo)]
    by_cases h : c.status.isRunning = true
    · have hr' := hr h
      obtain ⟨st', r, g, m⟩ := body_wait (n := n + 4) (fuel := fuel) hS hlo (by rw [hi, hr']; rfl)
      refine ⟨st', ?_, (Moves.nothing hc).then g m, by rw [g.input, hi]; rfl, fun h' => ?_⟩
      · rw [h]
        show M.bind (inScope _) _ st = _
        unfold M.bind
        rw [r]
        rfl
      · rw [h] at h'; cases h'
    · have h' : c.status.isRunning = false := by simpa using h
      rw [h']
      exact ⟨st, rfl, Moves.nothing hc, hi, fun _ => hl⟩
  | cons w ws ih =>
    obtain ⟨k, rfl⟩ : ∃ j, k = j + 1 := ⟨k - 1, by simp at hk; omega⟩
    have hlo := looping_of hl
    rw [loopIt_succ, bind_ok (cond_run hlo)]
    by_cases h : c.status.isRunning = true
    · have hg : goOn S.m c (w :: ws) = goOn S.m (Harness.animateStep S.m c w.1 w.2) ws := goOn_cons h
      rw [hg] at hr ⊢
      have hi' : st.input = typedOne S.m c w ++ (typed S.m (Harness.animateStep S.m c w.1 w.2) ws ++ rest) := by
        rw [hi, typed, if_pos h, List.append_assoc]
      obtain ⟨st1, r1, m1, l1, i1⟩ := body_goes (n := n) (fuel := fuel) hS hv (hx w (List.mem_cons_self ..)) hlo hc hi'
      have r2 : loopStep S L fuel (n + 4) st1 = .ok () { st1 with loc := locals (Harness.animateStep S.m c w.1 w.2).status } :=
        step_run hS (l1.trans hl) m1.1
      obtain ⟨st3, r3, m3, i3, l3⟩ := ih (st := { st1 with loc := locals (Harness.animateStep S.m c w.1 w.2).status }) k (by simp at hk; omega)
        (fun w hw => hx w (List.mem_cons_of_mem _ hw)) rfl (m1.1.congr rfl) i1 hr
      refine ⟨st3, ?_, (m1.loc _).trans m3, i3, l3⟩
      rw [h]
      show M.bind (inScope _) _ st = _
      rw [bind_ok r1]
      show M.bind (loopStep S L fuel (n + 4)) _ st1 = _
      rw [bind_ok r2]
      exact r3
    · have h' : c.status.isRunning = false := by simpa using h
      rw [goOn_done h', h']
      refine ⟨st, rfl, Moves.nothing hc, ?_, fun _ => hl⟩
      rw [hi, typed, if_neg h]
      rfl

/-! ### main -/

/-- Main, for animation: what is typed takes the machine where `animate` says; then, if the test has ended, main reports and returns the exit
code. -/
theorem animate_main (hS : Setup S L) (hv : S.v = .animate) (ws : List (Str × Value)) (hk : ws.length < fuel)
    (hx : ∀ w ∈ ws, ∀ a ∈ S.tc.out, a.channel.name = w.1 → HasCallback S.m (.output a.channel w.2) ∧ CanType L S.U S.ctx a.channel w.2) (rest : List Str)
    (hr : (Harness.animate S.m ws).status.isRunning = true → rest = []) (events : List Event) :
    ∃ st', runMain S.prog L fuel (n + 6) [] (typed S.m (Harness.construct S.m) ws ++ rest) events =
        (if (Harness.animate S.m ws).status.isRunning then .wait st'
         else .ok (.int (Harness.exitCode (Harness.animate S.m ws))) st') ∧
      Core S machineAt (Harness.animate S.m ws) st' ∧ st'.input = rest ∧
      st'.eff.filter (isSend S.v) = (Harness.animate S.m ws).sent.map (sendEffect L S.U S.v) ∧
      ((Harness.animate S.m ws).status.isRunning = false →
        ∃ before, st'.eff = before ++ report S.U S.v S.name S.tests (Harness.animate S.m ws)) := by
  have hnr : S.v ≠ Variant.ros := by rw [hv]; decide
  let C := cx S L fuel (n + 5) [c!"main"] none
  have hb : bindParams (mainParams S.v) [] = some [] := by
    unfold mainParams
    rw [if_neg hnr]
    rfl
  let st0 : St := atStart (typed S.m (Harness.construct S.m) ws ++ rest) events
  have hst0 : { st0 with loc := [] } = st0 := rfl
  -- the machine
  have hargs : evalList C (ctorArgs S.U S.v S.tc) st0 = .ok (pubArgs S L) st0 := by
    unfold ctorArgs pubArgs
    rw [if_neg hnr, if_neg hnr]
    rfl
  obtain ⟨st1, r1, c1, _, se1, g1, l1⟩ := exec_object (n := n) (fuel := fuel) hS hargs
  have g1 : ∃ d, Goes S.v st0 st1 [] d := ⟨_, g1⟩
  obtain ⟨d, g1⟩ := g1
  -- the log
  obtain ⟨st2, r2, s2, m2⟩ := exec_log (S := S) (fuel := fuel) (n := n + 5) (st := st1) (this := none) hS (shallow_main c!"main")
    (s := c!"Test " ++ S.name ++ c!" in main loop.") hS.info evalList_nil rfl
  -- the notice
  let notice : List Stmt := if S.tc.firstStateHasIn then [say c!"[!] Test is waiting for the SUT to initialise before sending an input.\n"] else []
  obtain ⟨st3, r3, s3, m3⟩ : ∃ st3, execSs C (stmtsOf notice) st2 = .ok .next st3 ∧ Steps S.v st2 st3 [] false ∧ st3.mem = st2.mem := by
    show ∃ st3, execSs C (stmtsOf (if S.tc.firstStateHasIn then _ else _)) st2 = .ok .next st3 ∧ _ ∧ _
    cases S.tc.firstStateHasIn with
    | true =>
      obtain ⟨st3, r, s, m⟩ := exec_say (w := c!"[!] Test is waiting for the SUT to initialise before sending an input.\n") (fuel := fuel) (n := n + 5) (st := st2) hS
      exact ⟨st3, execSs_one r, s, m⟩
    | false => exact ⟨st2, rfl, Steps.refl, rfl⟩
  have s13 := s2.trans s3
  have hl3 : st3.loc = [stmLoc] := by rw [s13.loc, l1]; rfl
  have c3 : Core S machineAt (Harness.construct S.m) st3 := c1.congr (m3.trans m2)
  have hstm3 : getLocal st3 c!"stm" = some (ty [SM], .obj machineAt [SM]) := by unfold getLocal; rw [hl3]; rfl
  -- the loop
  let st4 : St := { st3 with loc := locals (Harness.construct S.m).status }
  have hi4 : st4.input = typed S.m (Harness.construct S.m) ws ++ rest := by
    show st3.input = _
    rw [s13.input, g1.input]
    rfl
  obtain ⟨st5, r5, m5, i5, l5⟩ := run_loop (n := n + 1) (fuel := fuel) (st := st4) hS hv ws fuel hk hx rfl (c3.congr rfl) hi4 hr
  have e5 : goOn S.m (Harness.construct S.m) ws = Harness.animate S.m ws := rfl
  rw [e5] at r5 m5 l5
  have hloop : execS C (animateLoop S.U S.tc S.ctx) st3 =
      inScope (M.bind (evalE C getStatus) (fun v => M.bind (addLocal c!"s" auto v) (fun _ => loopIt S L fuel (n + 5) fuel))) st3 := by
    unfold animateLoop
    rw [execS]
    rfl
  have hin : M.bind (evalE C getStatus) (fun v => M.bind (addLocal c!"s" auto v) (fun _ => loopIt S L fuel (n + 5) fuel)) st3 =
      loopIt S L fuel (n + 5) fuel st4 := by
    rw [bind_ok (eval_getStatus hS hstm3 c3.status)]
    show loopIt S L fuel (n + 5) fuel { st3 with loc := (c!"s", auto, statusVal (Harness.construct S.m).status) :: st3.loc } = _
    rw [hl3]
    rfl
  have p3 : execSs C (stmtsOf (preInit S.U S.v S.name S.tc ++ [.declBraces (ty [SM]) c!"stm" (argsOf (ctorArgs S.U S.v S.tc))] ++ Tree.init S.U S.v S.tc ++
      [logged S.U S.v c!"info" (.str (c!"Test " ++ S.name ++ c!" in main loop.")) []] ++ notice)) st0 = .ok .next st3 := by
    have e1 : preInit S.U S.v S.name S.tc = [] := if_neg hnr
    have e2 : Tree.init S.U S.v S.tc = [] := if_neg hnr
    rw [e1, e2, List.nil_append, List.append_nil]
    exact execSs_app (execSs_app (execSs_one r1) (execSs_one r2)) r3
  have hbody : mainBody S.U S.v S.tc S.ctx = notice ++ [animateLoop S.U S.tc S.ctx] := if_neg hnr
  have hsends : st5.eff.filter (isSend S.v) = (Harness.animate S.m ws).sent.map (sendEffect L S.U S.v) := by
    obtain ⟨_, new, sent, f1, f2, f3⟩ := m5
    obtain ⟨_, _, n1, en1, fn1, _⟩ := g1
    obtain ⟨n2, en2, fn2, _⟩ := s13.eff
    have e4 : st4.eff = st3.eff := rfl
    have e0 : st0.eff = [] := rfl
    rw [f1, e4, en2, en1, e0, List.nil_append, List.filter_append, List.filter_append, fn1, fn2, f2, f3, se1]
    rfl
  by_cases hrun : (Harness.animate S.m ws).status.isRunning = true
  · rw [if_pos hrun] at r5
    have hw : execS C (animateLoop S.U S.tc S.ctx) st3 = .wait st5 := by
      rw [hloop]
      unfold inScope
      rw [hin, r5]
    have hall : execSs C (bodyOf (mainItem S.U S.v S.name S.tc S.ctx)) st0 = .wait st5 := by
      rw [main_body, hbody, ← List.append_assoc, List.append_assoc _ [_] (tailS S)]
      exact execSs_app p3 (execSs_wait hw)
    refine ⟨{ st5 with loc := [] }, ?_, m5.1.congr rfl, i5, hsends, ?_⟩
    · rw [if_pos hrun]
      exact callFn_wait (st := st0) S.fn_main hb hall
    · intro h
      rw [hrun] at h
      cases h
  · have hrun' : (Harness.animate S.m ws).status.isRunning = false := by simpa using hrun
    rw [if_neg hrun] at r5
    have hw : execS C (animateLoop S.U S.tc S.ctx) st3 = .ok .next { st5 with loc := st3.loc } := by
      rw [hloop]
      refine inScope_ok (hin.trans r5) ?_
      rw [l5 hrun', hl3]
      rfl
    have p5 := execSs_app p3 (execSs_one hw)
    obtain ⟨st8, r8, m8, i8, v8, e8⟩ := exec_tail (n := n + 4) (fuel := fuel) (f := c!"main") (st := { st5 with loc := st3.loc }) (T := ty [SM]) hS
      ((getLocal_eq rfl).trans hstm3) (m5.1.congr rfl)
    have hall : execSs C (bodyOf (mainItem S.U S.v S.name S.tc S.ctx)) st0 =
        .ok (.ret (.int (Harness.animate S.m ws).status.exitCode)) st8 := by
      rw [main_body, hbody, ← List.append_assoc]
      exact execSs_app p5 r8
    refine ⟨{ st8 with loc := [] }, ?_, m5.1.congr m8, i8.trans i5, ?_, ?_⟩
    · rw [if_neg hrun]
      exact callFn_run (st := st0) S.fn_main hb hall rfl
    · show st8.eff.filter _ = _
      rw [e8, List.filter_append, report_quiet]
      rw [show ({ st5 with loc := st3.loc } : St).eff = st5.eff from rfl, hsends, List.append_nil]
    · intro _
      exact ⟨_, e8⟩

end

end Sem

end Cpp

end Spec

end Rtcg
