import Verif.Proofs.CppConstruct

/-
Running the generated program: the end of main.
-/

namespace Rtcg

namespace Spec

namespace Cpp

namespace Sem

open Templates Rtcg.Cpp Tmpl Tree

/-- `Steps`, whatever the local variables are -/
structure Goes (v : Variant) (st st' : St) (sends : List Effect) (down : Bool) : Prop where
  input : st'.input = st.input
  events : st'.events = st.events
  eff : ∃ new, st'.eff = st.eff ++ new ∧ new.filter (isSend v) = sends ∧ new.any isShutdown = down

theorem Steps.goes {v : Variant} {st st' : St} {a : List Effect} {d : Bool} (h : Steps v st st' a d) : Goes v st st' a d :=
  ⟨h.input, h.events, h.eff⟩

theorem Goes.refl {v : Variant} {st : St} : Goes v st st [] false := Steps.refl.goes

theorem Goes.trans {v : Variant} {st st1 st2 : St} {a b : List Effect} {d e : Bool} (h : Goes v st st1 a d) (h' : Goes v st1 st2 b e) :
    Goes v st st2 (a ++ b) (d || e) := by
  obtain ⟨i, v, n, e1, e2, e3⟩ := h
  obtain ⟨i', v', n', e1', e2', e3'⟩ := h'
  exact ⟨i'.trans i, v'.trans v, n ++ n', by rw [e1', e1, List.append_assoc], by rw [List.filter_append, e2, e2'],
    by rw [List.any_append, e3, e3']⟩

/-- First nothing that can be seen here -/
theorem Goes.quiet {v : Variant} {st st1 st2 : St} {a : List Effect} {d : Bool} (h : Goes v st st1 [] false) (h' : Goes v st1 st2 a d) :
    Goes v st st2 a d := by
  have := h.trans h'
  rwa [List.nil_append, Bool.false_or] at this

theorem Goes.congr {v : Variant} {st st1 st2 st3 : St} {a : List Effect} {d : Bool} (h : Goes v st1 st2 a d)
    (he : st1.eff = st.eff) (hi : st1.input = st.input) (hv : st1.events = st.events) (he' : st3.eff = st2.eff)
    (hi' : st3.input = st2.input) (hv' : st3.events = st2.events) : Goes v st st3 a d := by
  obtain ⟨i, e, n, e1, e2, e3⟩ := h
  exact ⟨by rw [hi', i, hi], by rw [hv', e, hv], n, by rw [he', e1, he], e2, e3⟩

/-- A local variable changes nothing else -/
theorem Goes.loc {v : Variant} {st st' : St} {a : List Effect} {d : Bool} (h : Goes v st st' a d) (loc : List (Str × CType × Val)) :
    Goes v st { st' with loc := loc } a d := h.congr rfl rfl rfl rfl rfl rfl

/-- Effects are not taken back -/
theorem Goes.mem {v : Variant} {st st' : St} {a : List Effect} {d : Bool} (h : Goes v st st' a d) {e : Effect} (he : e ∈ st.eff) : e ∈ st'.eff := by
  obtain ⟨_, _, n, e1, _⟩ := h
  rw [e1]
  exact List.mem_append_left _ he

/-- An effect that is neither sending nor shutting down -/
theorem Goes.one {v : Variant} {st : St} {e : Effect} (h : isSend v e = false) (h' : isShutdown e = false) :
    Goes v st { st with eff := st.eff ++ [e] } [] false := (Steps.one h h').goes

section

variable {S : Src} {L : Lib} {fuel n : Nat} {st : St}

theorem execS_declEq {C : Ctx} {T : CType} {x : Str} {e : Expr} {v : Val} {st1 : St} (h : evalE C e st = .ok v st1) :
    execS C (.declEq T x e) st = .ok .next { st1 with loc := (x, T, v) :: st1.loc } := by
  rw [execS, bind_eq, bind_ok h]
  rfl

theorem getLocal_cons {x y : Str} {T : CType} {v : Val} {ls : List (Str × CType × Val)} :
    getLocal { st with loc := (y, T, v) :: ls } x = if y = x then some (T, v) else getLocal { st with loc := ls } x := by
  unfold getLocal
  rw [List.find?_cons]
  by_cases h : y = x <;> simp [h]

theorem getLocal_append {x : Str} {ls ms : List (Str × CType × Val)} (h : x ∉ ls.map (·.1)) :
    getLocal { st with loc := ls ++ ms } x = getLocal { st with loc := ms } x := by
  induction ls with
  | nil => rfl
  | cons l ls ih =>
    rw [List.map_cons, List.mem_cons, not_or] at h
    rw [List.cons_append, getLocal_cons, if_neg (Ne.symm h.1), ih h.2]

theorem getLocal_eq {st' : St} {x : Str} (h : st'.loc = st.loc) : getLocal st' x = getLocal st x := by
  unfold getLocal; rw [h]

/-- Looking at the machine from main -/
theorem sm_sub {x : Str} (h : x ∉ SM :: classMembers S.U S.v S.m) : S.prog.fn [SM, x] = none := by
  by_cases hx : x ∈ inherited
  · rw [S.fn_sm, Option.map_eq_none_iff, List.find?_eq_none]
    intro f hf he
    simp only [decide_eq_true_eq] at he
    have := @fn_not S (x ++ c!"")
    apply h
    rw [← he]
    clear he h
    unfold Src.sm smFns at hf
    unfold classMembers
    have e5 : S.tc = TransitionContext.make S.m := rfl
    simp only [List.mem_append] at hf
    rcases hf with (((((hf | hf) | hf) | hf) | hf) | hf) | hf
    · simp only [List.mem_singleton] at hf
      subst hf
      simp
    · simp only [helperItems, List.zip_cons_cons, List.zip_nil_right, List.mem_cons, List.not_mem_nil, or_false] at hf
      rcases hf with hf | hf | hf <;> subst hf <;> simp
    · simp only [List.mem_singleton] at hf
      subst hf
      simp
    · split at hf
      · rename_i h
        simp only [List.mem_singleton] at hf
        subst hf
        rw [e5] at h
        simp [h]
      · cases hf
    · split at hf
      · rename_i h
        simp only [List.mem_singleton] at hf
        subst hf
        rw [e5] at h
        simp [h]
      · cases hf
    · obtain ⟨a, ha, rfl⟩ := List.mem_map.1 hf
      rw [e5] at ha
      have : callbackName a.channel.name ∈ (TransitionContext.make S.m).out.map (fun a => callbackName a.channel.name) := List.mem_map.2 ⟨a, ha, rfl⟩
      simp only [List.mem_cons, List.mem_append, this]
      simp
    · obtain ⟨s, hs, rfl⟩ := List.mem_map.1 hf
      have : stateEntry S.U s.id ∈ S.m.states.map (fun s => stateEntry S.U s.id) := List.mem_map.2 ⟨s, hs, rfl⟩
      simp only [List.mem_cons, List.mem_append, this]
      simp
  · apply fn_not
    simp only [List.mem_cons, List.mem_append, not_or] at h ⊢
    exact ⟨h.1, hx, h.2⟩

theorem no_getStatus (hS : Setup S L) : S.prog.fn [SM, c!"getStatus"] = none := by
  apply sm_sub
  have h := hS.names.members
  intro hx
  rw [List.nodup_cons, List.nodup_append] at h
  rcases List.mem_cons.1 hx with e | hx
  · revert e; decide
  · exact h.2.2.2 c!"getStatus" (by decide) _ hx rfl

theorem run_getStatus {p : List Str} {s : Status} (hm : st.mem (p ++ [c!"status_"]) = some (statusVal s)) :
    callFn S.prog L fuel (n + 1) [c!"rtcg", c!"TestCase", c!"getStatus"] (some p) [] st = .ok (statusVal s) st := by
  have hx : execSs (cx S L fuel n [c!"rtcg", c!"TestCase", c!"getStatus"] (some p)) (stmtsOf [.retVal (nm c!"status_")]) { st with loc := [] } =
      .ok (.ret (statusVal s)) { st with loc := [] } := by
    refine execSs_stop ?_ (by simp)
    have e : evalE (cx S L fuel n [c!"rtcg", c!"TestCase", c!"getStatus"] (some p)) (.name [c!"status_"]) { st with loc := [] } =
        .ok (statusVal s) { st with loc := [] } := by
      refine name_field rfl ?_ hm
      show (S.prog.fields [c!"rtcg", c!"TestCase"]).any _ = true
      rw [S.fields_base]
      rfl
    rw [execS, bind_eq, show nm c!"status_" = .name [c!"status_"] from rfl, bind_ok e]
    rfl
  rw [callFn_run S.fn_getStatus rfl hx rfl]

/-- `stm.getStatus()` -/
theorem eval_getStatus (hS : Setup S L) {f : Str} {this : Option (List Str)} {p : List Str} {T : CType} {s : Status}
    (hl : getLocal st c!"stm" = some (T, .obj p [SM])) (hm : st.mem (p ++ [c!"status_"]) = some (statusVal s)) :
    evalE (cx S L fuel (n + 1) [f] this) getStatus st = .ok (statusVal s) st := by
  unfold getStatus mcall
  rw [eval_dot, bind_ok (name_local hl), evalS]
  simp only [bind_eq, evalA_argsOf]
  rw [bind_ok evalList_nil]
  have : Ctx.callMethod (cx S L fuel (n + 1) [f] this) (.obj p [SM]) c!"getStatus" [] [] st = .ok (statusVal s) st := by
    have e : Ctx.callMethod (cx S L fuel (n + 1) [f] this) (.obj p [SM]) c!"getStatus" [] [] =
        callFn S.prog L fuel (n + 1) [c!"rtcg", c!"TestCase", c!"getStatus"] (some p) [] := by
      unfold Ctx.callMethod
      show (if (S.prog.fn [SM, c!"getStatus"]).isSome = true then _ else
        (match S.prog.cls [SM] with
         | some (some b) => if (S.prog.fn (b ++ [c!"getStatus"])).isSome = true then _ else _
         | _ => _) : M Val) = _
      rw [no_getStatus hS, S.cls_prog, if_neg (by decide), if_neg (by decide), if_pos rfl]
      show (if (S.prog.fn [c!"rtcg", c!"TestCase", c!"getStatus"]).isSome = true then _ else _ : M Val) = _
      rw [S.fn_getStatus]
      rfl
    rw [e]
    exact run_getStatus hm
  rw [bind_ok this, evalS]
  rfl

theorem mem_getVerdict : (c!"getVerdict", Item.fn (some ⟨false, [c!"Verdict"], [c!"&"]⟩) [SM, c!"getVerdict"] [] (some (stmtsOf [.retVal (nm c!"verdict_")]))) ∈ S.sm := by
  unfold Src.sm smFns helperItems
  simp

theorem run_getVerdict (hS : Setup S L) {p : List Str} {v : Val} (hm : st.mem (p ++ [c!"verdict_"]) = some v) :
    callFn S.prog L fuel (n + 1) [SM, c!"getVerdict"] (some p) [] st = .ok v st := by
  have hx : execSs (cx S L fuel n [SM, c!"getVerdict"] (some p)) (stmtsOf [.retVal (nm c!"verdict_")]) { st with loc := [] } =
      .ok (.ret v) { st with loc := [] } := by
    refine execSs_stop ?_ (by simp)
    have e : evalE (cx S L fuel n [SM, c!"getVerdict"] (some p)) (.name [c!"verdict_"]) { st with loc := [] } = .ok v { st with loc := [] } :=
      name_field rfl (field_any (.inr (.inl rfl))) hm
    rw [execS, bind_eq, show nm c!"verdict_" = .name [c!"verdict_"] from rfl, bind_ok e]
    rfl
  rw [callFn_run (fn_of hS mem_getVerdict) rfl hx rfl]

/-- What `dump` says about a test -/
def said (S : Src) (v : Verdict) (t : Str) : Effect :=
  logEff S.U S.v c!"info" [.str (c!"  " ++ t ++ c!" = "), outcomeVal ((GoMap.get? v t).getD Outcome.unset)]

theorem exec_dumps (hS : Setup S L) {f : Str} {p : List Str} {v : Verdict} (l : List Str) (hl : ∀ t ∈ l, t ∈ S.tests) (hloc : st.loc = [])
    (ht : Tests S p v st) :
    execSs (cx S L fuel n [c!"Verdict", f] (some p)) (stmtsOf (l.map (fun t => logged S.U S.v c!"info" (.str (c!"  " ++ t ++ c!" = ")) [nm (t ++ c!"_")]))) st =
      .ok .next { st with eff := st.eff ++ l.map (said S v) } := by
  induction l generalizing st with
  | nil =>
    show Cpp.Res.ok _ _ = _
    simp
  | cons t l ih =>
    obtain ⟨o, h1, h2⟩ := ht t (hl t (List.mem_cons_self ..))
    have e : evalE (cx S L fuel n [c!"Verdict", f] (some p)) (nm (t ++ c!"_")) st = .ok (outcomeVal o) st :=
      name_field (by unfold getLocal; rw [hloc]; rfl) (test_field (hl t (List.mem_cons_self ..))) h2
    have hx := exec_logged (S := S) (fuel := fuel) (n := n) (this := some p) (shallow_verdict f) hS.lib hS.info
      (evalList_cons (eval_str (st := st) (s := c!"  " ++ t ++ c!" = ")) (evalList_cons e evalList_nil))
    have hi := ih (st := { st with eff := st.eff ++ [logEff S.U S.v c!"info" [.str (c!"  " ++ t ++ c!" = "), outcomeVal o]] })
      (fun t ht => hl t (List.mem_cons_of_mem _ ht)) hloc ht
    refine (execSs_cons hx).trans (hi.trans ?_)
    have : said S v t = logEff S.U S.v c!"info" [.str (c!"  " ++ t ++ c!" = "), outcomeVal o] := by
      unfold said; rw [h1]; rfl
    simp [this]

theorem run_dump (hS : Setup S L) {p : List Str} {v : Verdict} (ht : Tests S p v st) :
    callFn S.prog L fuel (n + 1) [c!"Verdict", c!"dump"] (some p) [] st =
      .ok .void { st with eff := st.eff ++ logEff S.U S.v c!"info" [.str c!"Final outcomes: "] :: S.tests.map (said S v) } := by
  let st0 : St := { st with loc := [] }
  have h1 := exec_logged (S := S) (fuel := fuel) (n := n) (this := some p) (shallow_verdict c!"dump") hS.lib hS.info
      (evalList_cons (eval_str (st := st0) (s := c!"Final outcomes: ")) evalList_nil)
  have h2 := exec_dumps (S := S) (fuel := fuel) (n := n) (f := c!"dump") (p := p) (v := v)
    (st := { st0 with eff := st0.eff ++ [logEff S.U S.v c!"info" [.str c!"Final outcomes: "]] }) hS S.tests (fun _ h => h) rfl ht
  have hx : execSs (cx S L fuel n [c!"Verdict", c!"dump"] (some p)) (Src.dumpBody S.U S.v S.tests) st0 = .ok .next
      { st0 with eff := st0.eff ++ logEff S.U S.v c!"info" [.str c!"Final outcomes: "] :: S.tests.map (said S v) } := by
    unfold Src.dumpBody
    rw [stmtsOf, execSs_cons h1, h2]
    simp
  rw [callFn_run (S.fn_dump (no_dump hS)) rfl hx rfl]

/-- The end of main -/
def tailS (S : Src) : List Stmt :=
  [.declEq auto c!"status" getStatus,
   logged S.U S.v c!"info" (.str (c!"Test " ++ S.name ++ c!" finished: ")) [nm c!"status", .str c!"."],
   .expr (.post (nm c!"stm") (.dot c!"getVerdict" (.call .nil (.dot c!"dump" (.call .nil .nil))))),
   .retVal (Tree.call [c!"rtcg", c!"status", c!"exitCode"] [nm c!"status"])]

theorem exec_tail (hS : Setup S L) {f : Str} {p : List Str} {T : CType} {c : Harness.Config} (hl : getLocal st c!"stm" = some (T, .obj p [SM]))
    (hc : Core S p c st) :
    ∃ st', execSs (cx S L fuel (n + 1) [f] none) (stmtsOf (tailS S)) st = .ok (.ret (.int c.status.exitCode)) st' ∧ st'.mem = st.mem ∧
      st'.input = st.input ∧ st'.events = st.events ∧ st'.eff = st.eff ++ report S.U S.v S.name S.tests c := by
  let C := cx S L fuel (n + 1) [f] none
  let st1 : St := { st with loc := (c!"status", auto, statusVal c.status) :: st.loc }
  have h1 : execS C (.declEq auto c!"status" getStatus) st = .ok .next st1 := execS_declEq (eval_getStatus hS hl hc.status)
  have hn : ∀ st2 : St, st2.loc = st1.loc → evalE C (nm c!"status") st2 = .ok (statusVal c.status) st2 := by
    intro st2 h
    refine nm_local (l := (auto, statusVal c.status)) ?_
    rw [getLocal_eq h]
    show getLocal { st with loc := (c!"status", auto, statusVal c.status) :: st.loc } c!"status" = _
    rw [getLocal_cons, if_pos rfl]
  have h2 := exec_logged (S := S) (fuel := fuel) (n := n + 1) (this := none) (shallow_main f) hS.lib hS.info
    (evalList_cons (eval_str (st := st1) (s := c!"Test " ++ S.name ++ c!" finished: ")) (evalList_cons (hn st1 rfl) (evalList_one (s := c!"."))))
  generalize hf : logEff S.U S.v c!"info" [.str (c!"Test " ++ S.name ++ c!" finished: "), statusVal c.status, .str c!"."] = e at h2
  let st2 : St := { st1 with eff := st1.eff ++ [e] }
  have hl2 : getLocal st2 c!"stm" = some (T, .obj p [SM]) := by
    show getLocal { st with loc := (c!"status", auto, statusVal c.status) :: st.loc } c!"stm" = _
    rw [getLocal_cons, if_neg (by decide)]
    exact hl
  let st3 : St := { st2 with eff := st2.eff ++ logEff S.U S.v c!"info" [.str c!"Final outcomes: "] :: S.tests.map (said S c.verdict) }
  have h3 : execS C (.expr (.post (nm c!"stm") (.dot c!"getVerdict" (.call .nil (.dot c!"dump" (.call .nil .nil)))))) st2 = .ok .next st3 := by
    apply execS_expr (v := .void)
    rw [eval_dot, bind_ok (nm_local hl2), evalS]
    simp only [bind_eq]
    rw [show evalA C .nil = M.ret [] by rw [evalA]]
    rw [bind_ok (show (M.ret [] : M (List Val)) st2 = .ok [] st2 from rfl)]
    have e1 : Ctx.callMethod C (.obj p [SM]) c!"getVerdict" [] [] st2 = .ok (.obj (p ++ [c!"verdict_"]) [c!"Verdict"]) st2 := by
      unfold Ctx.callMethod
      show (if (S.prog.fn [SM, c!"getVerdict"]).isSome = true then _ else _ : M Val) st2 = _
      rw [fn_of hS mem_getVerdict, Option.isSome_some, if_pos rfl]
      exact run_getVerdict hS hc.object
    rw [bind_ok e1, evalS]
    simp only [bind_eq]
    rw [show evalA C .nil = M.ret [] by rw [evalA]]
    rw [bind_ok (show (M.ret [] : M (List Val)) st2 = .ok [] st2 from rfl)]
    have e2 : Ctx.callMethod C (.obj (p ++ [c!"verdict_"]) [c!"Verdict"]) c!"dump" [] [] st2 = .ok .void st3 := by
      unfold Ctx.callMethod
      show (if (S.prog.fn [c!"Verdict", c!"dump"]).isSome = true then _ else _ : M Val) st2 = _
      rw [S.fn_dump (no_dump hS), Option.isSome_some, if_pos rfl]
      exact run_dump hS hc.tests
    rw [bind_ok e2, evalS]
    rfl
  have h4 : execS C (.retVal (Tree.call [c!"rtcg", c!"status", c!"exitCode"] [nm c!"status"])) st3 = .ok (.ret (.int c.status.exitCode)) st3 := by
    have e1 : evalE C (Tree.call [c!"rtcg", c!"status", c!"exitCode"] [nm c!"status"]) st3 = .ok (.int c.status.exitCode) st3 := by
      refine eval_call (c := [c!"rtcg", c!"status", c!"exitCode"]) (by decide) (evalList_cons (hn st3 rfl) evalList_nil) ?_ (run_exitCode _)
      show ([[c!"rtcg", c!"status", c!"exitCode"]] : List (List Str)).find? _ = _
      rw [List.find?_cons, S.fn_exitCode]
      rfl
    rw [execS, bind_eq, bind_ok e1]
    rfl
  refine ⟨st3, ?_, rfl, rfl, rfl, ?_⟩
  · show execSs C (stmtsOf (tailS S)) st = _
    unfold tailS
    exact (execSs_cons h1).trans ((execSs_cons h2).trans ((execSs_cons h3).trans (execSs_stop h4 (by simp))))
  · show st.eff ++ [e] ++ _ = _
    rw [← hf]
    unfold report said
    simp

end

end Sem

end Cpp

end Spec

end Rtcg
