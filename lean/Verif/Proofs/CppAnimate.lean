import Verif.Proofs.CppRosMain

/-
Running the generated program: main, for animation.
-/

namespace Rtcg

namespace Spec

namespace Cpp

namespace Sem

open Templates Rtcg.Cpp Tmpl Tree

/-! ### reading -/

theorem head_digit {w : Str} (h : w.all digit = true) (hn : w ≠ []) : w.head? ≠ some '-' := by
  intro e
  have hm : '-' ∈ w := List.mem_of_head? e
  have := List.all_eq_true.1 h _ hm
  revert this; decide

theorem number_format (i : Int64) : number (formatInt i) = some i.toInt := by
  unfold formatInt
  split
  · rename_i h
    unfold number
    rw [if_pos (by rfl), List.tail_cons, digits_decNat]
    simp only [Option.map_some, Option.some.injEq]
    omega
  · rename_i h
    unfold number
    rw [if_neg, digits_decNat]
    · simp only [Option.map_some, Option.some.injEq]
      omega
    · intro e
      have := decNat_head_digit _ _ e
      revert this; decide

theorem digits_format {i : Int64} (h : 0 ≤ i.toInt) : (digits (formatInt i)).map (fun n : Nat => (n : Int)) = some i.toInt := by
  unfold formatInt
  rw [if_neg (by omega), digits_decNat]
  simp only [Option.map_some, Option.some.injEq]
  omega

theorem kinds {t : RsType} : (t.isInt = true → t.isEnum = false ∧ t.isNat = false) ∧ (t.isNat = true → t.isEnum = false) := by
  obtain ⟨k, d⟩ := t
  constructor
  · intro h
    unfold RsType.isInt RsType.isArithmos at h
    unfold RsType.isEnum RsType.isNat RsType.isArithmos
    split at h
    · cases h
    · rename_i hk
      have hk : k = .arithmos := Classical.not_not.1 hk
      have hd : d = .int := by simpa using h
      clear h
      subst hk; subst hd
      exact ⟨rfl, rfl⟩
  · intro h
    unfold RsType.isNat RsType.isArithmos at h
    unfold RsType.isEnum
    split at h
    · cases h
    · rename_i hk
      have hk : k = .arithmos := Classical.not_not.1 hk
      subst hk; rfl

/-- What is typed for a value is read as the value -/
theorem read_value {t : RsType} {x : Value} (h : FitsType t x) : readAs (typeE t) x.stringValue = some (valueVal x) := by
  cases x with
  | none => exact absurd h id
  | enum s =>
    have : typeE t = ty [c!"std", c!"string"] := if_pos h
    rw [this]
    rfl
  | int i =>
    rcases h with h | ⟨h, h0⟩
    · obtain ⟨h1, h2⟩ := kinds.1 h
      have : typeE t = ty [c!"int"] := by unfold typeE; rw [h1, h2, h]; rfl
      rw [this]
      show (number (formatInt i)).map Val.int = _
      rw [number_format]
      rfl
    · have h1 := kinds.2 h
      have : typeE t = ty [c!"unsigned int"] := by unfold typeE; rw [h1, h]; rfl
      rw [this]
      show (digits (formatInt i)).map (fun n : Nat => Val.int n) = _
      have e := congrArg (Option.map Val.int) (digits_format h0)
      rw [Option.map_map] at e
      exact e

section

variable {S : Src} {L : Lib} {fuel n : Nat} {st : St}

theorem cls_plain {q : List Str} (h1 : q ≠ [c!"rtcg", c!"TestCase"]) (h2 : q ≠ [c!"Verdict"]) (h3 : q ≠ [SM]) : S.prog.cls q = none := by
  rw [S.cls_prog, if_neg h1.symm, if_neg h2.symm, if_neg h3.symm]

theorem exec_decl {T : CType} {x : Str} {v : Val} (hc : S.prog.cls T.name = none) (hi : initial L T = some v) :
    execS (cx S L fuel n [c!"main"] none) (.decl T x) st = .ok .next { st with loc := (x, T, v) :: st.loc } := by
  have hcls : (cx S L fuel n [c!"main"] none).classOf T.name = none := by
    cases hn : T.name with
    | nil => rfl
    | cons x q =>
      rw [hn] at hc
      show ([x :: q] : List (List Str)).find? (fun c => (S.prog.cls c).isSome) = none
      rw [List.find?_cons, hc]
      rfl
  have e : (cx S L fuel n [c!"main"] none).declare T x = addLocal x T v := by
    have hi' : initial (cx S L fuel n [c!"main"] none).lib T = some v := hi
    unfold Ctx.declare
    simp only [hcls, hi']
  rw [execS, e]
  rfl

theorem read_ok {x : Str} {T : CType} {v v' : Val} {w : Str} {ws : List Str} (hl : getLocal st x = some (T, v)) (hi : st.input = w :: ws)
    (hr : readAs T w = some v') :
    execS (cx S L fuel n [c!"main"] none) (readS x) st = .ok .next { st with input := ws, loc := setIn x v' st.loc } := by
  apply execS_expr (v := .void)
  rw [evalE, if_pos (show nameOf (.name [c!"std", c!"cin"]) = some [c!"std", c!"cin"] from rfl), bind_eq]
  have e : readTail (.cons c!">>" (nm x) .nil) st = .ok () { st with input := ws, loc := setIn x v' st.loc } := by
    rw [readTail]
    show (if c!">>" = c!">>" then M.bind (readInto x) (fun _ => readTail .nil) else M.fail) st = _
    have e1 : readInto x st = .ok () { st with input := ws, loc := setIn x v' st.loc } := by
      unfold readInto
      simp only [hl, hi, hr]
    show M.bind (readInto x) (fun _ => readTail .nil) st = _
    rw [bind_ok e1]
    rfl
  rw [bind_ok e]
  rfl

theorem read_wait {x : Str} {T : CType} {v : Val} (hl : getLocal st x = some (T, v)) (hi : st.input = []) :
    execS (cx S L fuel n [c!"main"] none) (readS x) st = .wait st := by
  have e : readTail (.cons c!">>" (nm x) .nil) st = .wait st := by
    rw [readTail]
    show M.bind (readInto x) (fun _ => readTail .nil) st = _
    unfold M.bind readInto
    simp only [hl, hi]
  have e2 : evalE (cx S L fuel n [c!"main"] none) (.shift (.name [c!"std", c!"cin"]) (.cons c!">>" (nm x) .nil)) st = .wait st := by
    rw [evalE, if_pos (show nameOf (.name [c!"std", c!"cin"]) = some [c!"std", c!"cin"] from rfl), bind_eq]
    unfold M.bind
    rw [e]
  unfold readS
  rw [execS, bind_eq]
  unfold M.bind
  rw [e2]

/-! ### prompts -/

/-- It says something at most -/
def Says (S : Src) (C : Ctx) (s : Stmt) : Prop :=
  ∀ st x, getLocal st c!"s" = some (auto, statusVal x) → ∃ st', execS C s st = .ok .next st' ∧ Steps S.v st st' [] false ∧ st'.mem = st.mem

theorem exec_say (hS : Setup S L) {w : Str} : ∃ st', execS (cx S L fuel n [c!"main"] none) (say w) st = .ok .next st' ∧
    Steps S.v st st' [] false ∧ st'.mem = st.mem := by
  refine ⟨{ st with eff := st.eff ++ [.out [.glob [c!"std", c!"cout"], .str w]] }, ?_, ?_, rfl⟩
  · apply execS_expr (v := .void)
    have e : evalT (cx S L fuel n [c!"main"] none) (.cons c!"<<" (.str w) .nil) st = .ok [.str w] st := by
      have := evalT_outs (cx S L fuel n [c!"main"] none) [.str w]
      rw [show outs [.str w] = .cons c!"<<" (.str w) .nil from rfl] at this
      rw [this]
      exact evalList_one
    rw [evalE, if_neg (by decide), bind_eq, bind_ok (eval_std (shallow_main _) (hS.lib.std _ (by decide))), bind_eq, bind_ok e]
    rfl
  · apply Steps.one
    · unfold isSend; cases decide (S.v = Variant.animate) <;> rfl
    · rfl

theorem says_say (hS : Setup S L) {w : Str} : Says S (cx S L fuel n [c!"main"] none) (say w) := fun _ _ _ => exec_say hS

theorem eval_statusIs {x y : Status} (h : getLocal st c!"s" = some (auto, statusVal x)) :
    evalE (cx S L fuel n [c!"main"] none) (statusIs (statusWord y)) st = .ok (.bool (decide (x = y))) st :=
  eval_eq (nm_local h) (eval_status (shallow_main _) y) (veq_status x y)

theorem says_ite {y : Status} {a b : Stmt} (ha : Says S (cx S L fuel n [c!"main"] none) a) (hb : Says S (cx S L fuel n [c!"main"] none) b) :
    Says S (cx S L fuel n [c!"main"] none) (.ite (statusIs (statusWord y)) a b) := by
  intro st x h
  rw [execS_ite (eval_statusIs (y := y) h)]
  cases decide (x = y) with
  | true =>
    obtain ⟨st', r, s, m⟩ := ha st x h
    exact ⟨st', inScope_same r s.loc, s, m⟩
  | false =>
    obtain ⟨st', r, s, m⟩ := hb st x h
    exact ⟨st', inScope_same r s.loc, s, m⟩

theorem says_skip : Says S (cx S L fuel n [c!"main"] none) .skip := fun st _ _ => ⟨st, execS_skip, Steps.refl, rfl⟩

theorem says_list {C : Ctx} (l : List Stmt) (hl : ∀ s ∈ l, Says S C s) {x : Status} (h : getLocal st c!"s" = some (auto, statusVal x)) :
    ∃ st', execSs C (stmtsOf l) st = .ok .next st' ∧ Steps S.v st st' [] false ∧ st'.mem = st.mem := by
  induction l generalizing st with
  | nil => exact ⟨st, rfl, Steps.refl, rfl⟩
  | cons s l ih =>
    obtain ⟨st1, r1, s1, m1⟩ := hl s (List.mem_cons_self ..) st x h
    obtain ⟨st2, r2, s2, m2⟩ := ih (fun s hs => hl s (List.mem_cons_of_mem _ hs)) (st := st1) (by rw [getLocal_eq s1.loc]; exact h)
    exact ⟨st2, (execSs_cons r1).trans r2, s1.trans s2, m2.trans m1⟩

theorem says_prompts (hS : Setup S L) : ∀ s ∈ prompts S.tc S.ctx, Says S (cx S L fuel n [c!"main"] none) s := by
  intro s hs
  have h1 : Says S (cx S L fuel n [c!"main"] none)
      (.ite (statusIs c!"WAIT_IN") (say c!"  accept (accepts an input)\n") .skip) := says_ite (y := .waitIn) (says_say hS) says_skip
  unfold prompts at hs
  simp only [List.mem_append] at hs
  rcases hs with (((hs | hs) | hs) | hs) | hs
  · simp only [List.mem_singleton] at hs
    subst hs
    exact says_say hS
  · split at hs
    · split at hs
      · simp only [List.mem_singleton] at hs
        subst hs
        exact says_ite (y := .waitStart) (says_say hS) h1
      · simp only [List.mem_singleton] at hs
        subst hs
        exact h1
    · cases hs
  · simp only [List.mem_cons, List.not_mem_nil, or_false] at hs
    rcases hs with rfl | rfl <;> exact says_say hS
  · split at hs
    · simp only [List.mem_singleton] at hs
      subst hs
      exact says_say hS
    · obtain ⟨a, _, rfl⟩ := List.mem_map.1 hs
      exact says_say hS
  · simp only [List.mem_singleton] at hs
    subst hs
    exact says_say hS

/-! ### choices -/

/-- From one configuration to another -/
def Moves (S : Src) (L : Lib) (c c' : Harness.Config) (st st' : St) : Prop :=
  Core S machineAt c' st' ∧ ∃ new sent, st'.eff = st.eff ++ new ∧ new.filter (isSend S.v) = sent.map (sendEffect L S.U S.v) ∧
    c'.sent = c.sent ++ sent

theorem Moves.of_did {c c' : Harness.Config} {st' : St} (h : Did S L machineAt c c' st st') : Moves S L c c' st st' := by
  obtain ⟨h1, _, new, h2, h3⟩ := h
  obtain ⟨nw, e1, e2, _⟩ := h3.eff
  exact ⟨h1, nw, new, e1, e2, h2⟩

theorem Moves.nothing {c : Harness.Config} (h : Core S machineAt c st) : Moves S L c c st st := ⟨h, [], [], by simp, rfl, by simp⟩

theorem Moves.after {c c' : Harness.Config} {st1 st' : St} {d : Bool} (g : Goes S.v st st1 [] d) (h : Moves S L c c' st1 st') :
    Moves S L c c' st st' := by
  obtain ⟨h1, new, sent, e1, e2, e3⟩ := h
  obtain ⟨_, _, n', f1, f2, _⟩ := g
  exact ⟨h1, n' ++ new, sent, by rw [e1, f1, List.append_assoc], by rw [List.filter_append, f2, e2]; rfl, e3⟩

theorem Moves.then {c c' : Harness.Config} {st1 st' : St} {d : Bool} (h : Moves S L c c' st st1) (g : Goes S.v st1 st' [] d) (hm : st'.mem = st1.mem) :
    Moves S L c c' st st' := by
  obtain ⟨h1, new, sent, e1, e2, e3⟩ := h
  obtain ⟨_, _, n', f1, f2, _⟩ := g
  exact ⟨h1.congr hm, new ++ n', sent, by rw [f1, e1, List.append_assoc], by rw [List.filter_append, f2, e2]; simp, e3⟩

theorem Moves.trans {c c1 c2 : Harness.Config} {st1 st2 : St} (h : Moves S L c c1 st st1) (h' : Moves S L c1 c2 st1 st2) :
    Moves S L c c2 st st2 := by
  obtain ⟨_, new, sent, e1, e2, e3⟩ := h
  obtain ⟨h1, new', sent', e1', e2', e3'⟩ := h'
  exact ⟨h1, new ++ new', sent ++ sent', by rw [e1', e1, List.append_assoc], by rw [List.filter_append, e2, e2', List.map_append],
    by rw [e3', e3, List.append_assoc]⟩

theorem Moves.loc {c c' : Harness.Config} {st' : St} (h : Moves S L c c' st st') (loc : List (Str × CType × Val)) :
    Moves S L c c' st { st' with loc := loc } := by
  obtain ⟨h1, new, sent, e1, e2, e3⟩ := h
  exact ⟨h1.congr rfl, new, sent, e1, e2, e3⟩

/-- The machine in `main` -/
def stmLoc : Str × CType × Val := (c!"stm", ty [SM], .obj machineAt [SM])

theorem no_pubs (hv : S.v = .animate) {p : List Str} : Pubs S L p st := by
  intro h
  rw [hv] at h
  cases h

/-- `stm.callback(...)` -/
theorem exec_callback (hS : Setup S L) (hv : S.v = .animate) {T : CType} (hl : getLocal st c!"stm" = some (T, .obj machineAt [SM]))
    {c : Harness.Config} (hc : Core S machineAt c st) {cb : Harness.Callback} (hcb : HasCallback S.m cb) {es : List Expr} {args : List Val} {st1 : St}
    (he : evalList (cx S L fuel (n + 4) [c!"main"] none) es st = .ok args st1) (hg : Steps S.v st st1 [] false) (hm : st1.mem = st.mem)
    (ha : ArgsOf L S.U S.v cb args) :
    ∃ st', execS (cx S L fuel (n + 4) [c!"main"] none) (.expr (mcall c!"stm" (methodOf cb) es)) st = .ok .next st' ∧
      Moves S L c (Harness.step S.m c cb) st st' ∧ st'.loc = st.loc ∧ st'.input = st.input := by
  obtain ⟨st', r, d⟩ := run_callback (st := st1) (n := n) (fuel := fuel) hS (hc.congr hm) (no_pubs hv) hcb ha
  have hf : (S.prog.fn ([SM] ++ [methodOf cb])).isSome = true := by
    show (S.prog.fn [SM, methodOf cb]).isSome = true
    by_contra hn
    rw [callFn] at r
    have : S.prog.fn [SM, methodOf cb] = none := by simpa using hn
    simp only [this] at r
    cases r
  refine ⟨st', execS_expr (eval_method (name_local hl) he hf r), Moves.after hg.goes (Moves.of_did d), ?_, ?_⟩
  · obtain ⟨_, _, _, _, s⟩ := d
    rw [s.loc, hg.loc]
  · obtain ⟨_, _, _, _, s⟩ := d
    rw [s.input, hg.input]

/-- What the choices depend on: the word, the status and the machine -/
structure Chosen (st : St) (w : Str) (x : Status) : Prop where
  choice : getLocal st c!"choice" = some (ty [c!"std", c!"string"], .str w)
  s : getLocal st c!"s" = some (auto, statusVal x)
  stm : getLocal st c!"stm" = some (ty [SM], .obj machineAt [SM])

theorem eval_choiceIs {w u : Str} {x : Status} (h : Chosen st w x) :
    evalE (cx S L fuel n [c!"main"] none) (choiceIs u) st = .ok (.bool (w == u)) st :=
  eval_eq (nm_local h.choice) eval_str rfl

theorem eval_both {w u : Str} {x y : Status} (h : Chosen st w x) :
    evalE (cx S L fuel n [c!"main"] none) (.and (choiceIs u) (statusIs (statusWord y))) st = .ok (.bool ((w == u) && decide (x = y))) st := by
  rw [evalE, bind_eq, bind_ok (eval_choiceIs h), bind_eq]
  cases hw : (w == u) with
  | false => rfl
  | true =>
    show M.bind (evalE _ _) _ st = _
    rw [bind_ok (eval_statusIs h.s)]
    rfl

end

end Sem

end Cpp

end Spec

end Rtcg
