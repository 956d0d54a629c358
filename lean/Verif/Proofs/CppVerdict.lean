import Verif.Proofs.CppCalls

/-
Running the generated program: verdicts, switches and the names of states.
-/

namespace Rtcg

namespace Spec

namespace Cpp

namespace Sem

open Templates Rtcg.Cpp Tmpl Tree

section

variable {S : Src} {L : Lib} {fuel n : Nat} {st : St}

/-! ### verdicts -/

theorem no_dump (hS : Setup S L) : c!"dump" ∉ S.tests := by
  have h := hS.names.verdict
  intro hd
  unfold verdictMembers at h
  simp only [List.cons_append, List.nil_append, List.nodup_cons, List.mem_append, List.mem_cons, not_or] at h
  exact h.2.1.1 hd

theorem test_field {t : Str} (ht : t ∈ S.tests) : (S.prog.fields [c!"Verdict"]).any (fun f => f.2.1 = t ++ c!"_") = true := by
  rw [S.fields_verdict, List.any_eq_true]
  exact ⟨_, List.mem_map.2 ⟨t, ht, rfl⟩, by simp⟩

theorem veq_outcome (a b : Outcome) : veq (outcomeVal a) (outcomeVal b) = some (decide (outcomeVal a = outcomeVal b)) := by
  unfold outcomeVal veq
  simp only [List.dropLast_cons_cons, List.dropLast_singleton, if_true, Option.some.injEq, Val.enum.injEq]
  rw [Bool.eq_iff_iff]
  simp

theorem test_ne (t : Str) : c!"new_val" ≠ t ++ c!"_" := by
  intro h
  have := congrArg List.getLast? h
  rw [List.getLast?_append] at this
  simp at this

theorem run_setter (hS : Setup S L) {p : List Str} {t : Str} (ht : t ∈ S.tests) {o o' : Outcome}
    (hm : st.mem (p ++ [t ++ c!"_"]) = some (outcomeVal o)) :
    ∃ st', callFn S.prog L fuel (n + 1) [c!"Verdict", t] (some p) [outcomeVal o'] st = .ok .void st' ∧ Steps S.v st st' [] false ∧
      st'.mem = upd st.mem (p ++ [t ++ c!"_"]) (outcomeVal o') := by
  let C := cx S L fuel n [c!"Verdict", t] (some p)
  let st0 : St := { st with loc := [(c!"new_val", outcomeTy, outcomeVal o')] }
  have hb : bindParams [(outcomeTy, c!"new_val")] [outcomeVal o'] = some [(c!"new_val", outcomeTy, outcomeVal o')] := rfl
  have hf := S.fn_setter ht (no_dump hS)
  have l0 : getLocal st0 (t ++ c!"_") = none := by
    unfold getLocal
    simp only [st0, List.find?_cons, List.find?_nil, decide_eq_false (test_ne t), Option.map_none]
  have h1 : evalE C (nm (t ++ c!"_")) st0 = .ok (outcomeVal o) st0 := name_field l0 (test_field ht) hm
  have h2 : evalE C (nm c!"new_val") st0 = .ok (outcomeVal o') st0 := nm_local getLocal_one
  have hc := eval_eq h1 h2 (veq_outcome o o')
  by_cases he : outcomeVal o = outcomeVal o'
  · have hx : execSs C (Src.setterBody S.U S.v t) st0 = .ok (.ret .void) st0 := by
      unfold Src.setterBody
      refine execSs_stop ?_ (by simp)
      rw [execS_ite hc, if_pos (by simp [he])]
      exact inScope_ret
    refine ⟨_, callFn_run hf hb hx rfl, Steps.refl.congr rfl rfl rfl rfl rfl rfl rfl, ?_⟩
    rw [← he, upd_noop hm]
  · have hl := exec_logged (S := S) (fuel := fuel) (n := n) (this := some p) (shallow_verdict t) hS.lib hS.info
      (evalList_cons (eval_str (st := st0) (s := c!"Test " ++ t ++ c!" is now ")) (evalList_cons h2 (evalList_cons (eval_str (s := c!"; was "))
        (evalList_cons h1 (evalList_cons (eval_str (s := c!".")) evalList_nil)))))
    generalize hv : logEff S.U S.v c!"info" (.str (c!"Test " ++ t ++ c!" is now ") :: _) = e at hl
    have hq : isSend S.v e = false ∧ isShutdown e = false := by rw [← hv]; exact logEff_quiet (by rfl)
    let st1 : St := { st0 with eff := st0.eff ++ [e] }
    have h3 : evalE C (.assign (nm (t ++ c!"_")) (nm c!"new_val")) st1 = .ok (outcomeVal o')
        { st1 with mem := upd st1.mem (p ++ [t ++ c!"_"]) (outcomeVal o') } :=
      assign_field (st' := st1) (nm_local (l := (outcomeTy, outcomeVal o')) rfl) l0 (test_field ht)
    have hx : execSs C (Src.setterBody S.U S.v t) st0 = .ok .next { st1 with mem := upd st1.mem (p ++ [t ++ c!"_"]) (outcomeVal o') } := by
      unfold Src.setterBody
      refine (execSs_cons (st' := st0) ?_).trans ((execSs_cons hl).trans (execSs_cons (execS_expr h3)))
      rw [execS_ite hc, if_neg (by simp [he])]
      exact inScope_skip
    exact ⟨_, callFn_run hf hb hx rfl, (Steps.one (st := st) hq.1 hq.2).congr rfl rfl rfl rfl rfl rfl rfl, rfl⟩

/-- The fields of the object `p` hold the outcomes `v` -/
def Tests (S : Src) (p : List Str) (v : Verdict) (st : St) : Prop :=
  ∀ t ∈ S.tests, ∃ o, GoMap.get? v t = some o ∧ st.mem (p ++ [t ++ c!"_"]) = some (outcomeVal o)

theorem Tests.upd {p : List Str} {v : Verdict} {t : Str} {o : Outcome} (h : Tests S p v st) {st' : St}
    (hm : st'.mem = upd st.mem (p ++ [t ++ c!"_"]) (outcomeVal o)) : Tests S p (GoMap.set v t o) st' := by
  intro x hx
  obtain ⟨o', h1, h2⟩ := h x hx
  by_cases e : t = x
  · subst e
    exact ⟨o, by rw [GoMap.get?_set, if_pos rfl], by rw [hm, upd_same]⟩
  · refine ⟨o', by rw [GoMap.get?_set, if_neg e, h1], ?_⟩
    rw [hm, upd_other]
    · exact h2
    · intro h
      simp only [List.append_cancel_left_eq, List.cons.injEq, and_true] at h
      exact e (List.append_cancel_right h).symm

/-- Nothing but outcomes in `p` has changed -/
def Apart (p : List Str) (st st' : St) : Prop := ∀ q, (∀ x, q ≠ p ++ [x]) → st'.mem q = st.mem q

theorem set_verdicts (hS : Setup S L) {f : Str} {p : List Str} (l : List (Str × Outcome)) (hl : ∀ e ∈ l, e.1 ∈ S.tests ∧ e.2.val.toNat < 4)
    {v : Verdict} (hloc : getLocal st c!"verdict_" = none) (ho : st.mem (p ++ [c!"verdict_"]) = some (.obj (p ++ [c!"verdict_"]) [c!"Verdict"]))
    (ht : Tests S (p ++ [c!"verdict_"]) v st) :
    ∃ st', execSs (cx S L fuel (n + 1) [SM, f] (some p)) (stmtsOf (l.map (fun e => .expr (mcall c!"verdict_" e.1 [outcomeE S.U e.2])))) st =
        .ok .next st' ∧ Steps S.v st st' [] false ∧ Tests S (p ++ [c!"verdict_"]) (l.foldl (fun m e => GoMap.set m e.1 e.2) v) st' ∧
      Apart (p ++ [c!"verdict_"]) st st' := by
  induction l generalizing st v with
  | nil => exact ⟨st, rfl, Steps.refl, ht, fun _ _ => rfl⟩
  | cons e l ih =>
    obtain ⟨ht1, ht2⟩ := hl e (List.mem_cons_self ..)
    obtain ⟨o, _, hm⟩ := ht e.1 ht1
    obtain ⟨st1, r1, s1, m1⟩ := run_setter (n := n) (fuel := fuel) hS ht1 (o' := e.2) hm
    have hx : evalE (cx S L fuel (n + 1) [SM, f] (some p)) (.name [c!"verdict_"]) st = .ok (.obj (p ++ [c!"verdict_"]) [c!"Verdict"]) st :=
      name_field hloc (field_any (.inr (.inl rfl))) ho
    have ha : evalE (cx S L fuel (n + 1) [SM, f] (some p)) (outcomeE S.U e.2) st = .ok (outcomeVal e.2) st := by
      unfold outcomeE
      rw [hS.outcomes e.2 ht2]
      exact eval_outcome (shallow_sm f) e.2
    have h1 : execS (cx S L fuel (n + 1) [SM, f] (some p)) (.expr (mcall c!"verdict_" e.1 [outcomeE S.U e.2])) st = .ok .next st1 :=
      execS_expr (eval_method hx (evalList_cons ha evalList_nil) (by
        show (S.prog.fn [c!"Verdict", e.1]).isSome = true
        rw [S.fn_setter ht1 (no_dump hS)]
        rfl) r1)
    obtain ⟨st2, r2, s2, t2, a2⟩ := ih (fun e he => hl e (List.mem_cons_of_mem _ he)) (st := st1) (v := GoMap.set v e.1 e.2)
      (by unfold getLocal at hloc ⊢; rw [s1.loc]; exact hloc)
      (by rw [m1, upd_other (by simp), ho]) (ht.upd m1)
    refine ⟨st2, (execSs_cons h1).trans r2, s1.trans s2, t2, ?_⟩
    intro q hq
    rw [a2 q hq, m1, upd_other (hq _)]

/-! ### switches over states -/

/-- Labels and what follows them -/
def labelled {α : Type} (U : Unicode) (key : α → Str) (body : α → List Stmt) (l : List α) : List Stmt :=
  l.flatMap (fun e => .case (stateE U (key e)) :: body e)

theorem isCase_state {C : Ctx} {U : Unicode} {k : Str} {v : Val} : C.isCase v (.case (stateE U k)) = decide (C.global [c!"State", enumField U k] = some v) := rfl

theorem labelled_case {α : Type} {C : Ctx} {U : Unicode} {key : α → Str} {body : α → List Stmt} {l : List α} {v : Val}
    (hg : ∀ e ∈ l, C.global [c!"State", enumField U (key e)] = some (stateVal U (key e)))
    (hb : ∀ e ∈ l, ∀ s ∈ body e, C.isCase v s = false) :
    (labelled U key body l).any (C.isCase v) = l.any (fun e => decide (stateVal U (key e) = v)) := by
  induction l with
  | nil => rfl
  | cons e l ih =>
    have hb' : (body e).any (C.isCase v) = false := List.any_eq_false.2 (fun s hs => by simp [hb e (List.mem_cons_self ..) s hs])
    unfold labelled at ih ⊢
    rw [List.flatMap_cons, List.any_append, List.any_cons, hb', ih (fun e he => hg e (List.mem_cons_of_mem _ he))
      (fun e he => hb e (List.mem_cons_of_mem _ he)), List.any_cons, isCase_state, hg e (List.mem_cons_self ..)]
    simp

theorem switch_hit {α : Type} {C : Ctx} {U : Unicode} {key : α → Str} {body : α → List Stmt} {l : List α} {rest : List Stmt} {x : α}
    (hx : x ∈ l) (hg : ∀ e ∈ l, C.global [c!"State", enumField U (key e)] = some (stateVal U (key e)))
    (hi : ∀ e ∈ l, enumField U (key e) = enumField U (key x) → e = x)
    (hb : ∀ e ∈ l, ∀ s ∈ body e, C.isCase (stateVal U (key x)) s = false) :
    ∃ tail, execFrom C (if C.hasCase (stateVal U (key x)) (stmtsOf (labelled U key body l ++ rest)) then C.isCase (stateVal U (key x)) else isDefault)
      false (stmtsOf (labelled U key body l ++ rest)) = execSs C (stmtsOf (body x ++ tail)) := by
  have hc : C.hasCase (stateVal U (key x)) (stmtsOf (labelled U key body l ++ rest)) = true := by
    rw [hasCase_iff, List.any_append, labelled_case hg hb, Bool.or_eq_true]
    left
    exact List.any_eq_true.2 ⟨x, hx, by simp⟩
  rw [hc, if_pos rfl]
  clear hc
  induction l with
  | nil => cases hx
  | cons e l ih =>
    have e0 : labelled U key body (e :: l) ++ rest = .case (stateE U (key e)) :: (body e ++ (labelled U key body l ++ rest)) := by
      unfold labelled; simp
    rw [e0, stmtsOf]
    by_cases h : enumField U (key e) = enumField U (key x)
    · have := hi e (List.mem_cons_self ..) h
      subst this
      refine ⟨labelled U key body l ++ rest, ?_⟩
      rw [execFrom_hit, execFrom_on]
      rw [isCase_state, hg e (List.mem_cons_self ..)]
      simp
    · rw [execFrom_skip, execFrom_app_skip]
      · refine ih ?_ (fun e he => hg e (List.mem_cons_of_mem _ he)) (fun e he => hi e (List.mem_cons_of_mem _ he))
          (fun e he => hb e (List.mem_cons_of_mem _ he))
        rcases List.mem_cons.1 hx with rfl | hx
        · exact absurd rfl h
        · exact hx
      · exact hb e (List.mem_cons_self ..)
      · rw [isCase_state, hg e (List.mem_cons_self ..)]
        simp [stateVal, h]

theorem switch_miss {α : Type} {C : Ctx} {U : Unicode} {key : α → Str} {body : α → List Stmt} {l : List α} {rest : List Stmt} {v : Val}
    (hg : ∀ e ∈ l, C.global [c!"State", enumField U (key e)] = some (stateVal U (key e)))
    (hi : ∀ e ∈ l, stateVal U (key e) ≠ v)
    (hb : ∀ e ∈ l, ∀ s ∈ body e, C.isCase v s = false ∧ isDefault s = false) (hr : ∀ s ∈ rest, C.isCase v s = false) :
    execFrom C (if C.hasCase v (stmtsOf (labelled U key body l ++ .dflt :: rest)) then C.isCase v else isDefault)
      false (stmtsOf (labelled U key body l ++ .dflt :: rest)) = execSs C (stmtsOf rest) := by
  have hc : C.hasCase v (stmtsOf (labelled U key body l ++ .dflt :: rest)) = false := by
    rw [hasCase_iff, List.any_append, labelled_case hg (fun e he s hs => (hb e he s hs).1), Bool.or_eq_false_iff]
    refine ⟨List.any_eq_false.2 fun e he => by simp [hi e he], List.any_eq_false.2 fun s hs => ?_⟩
    rcases List.mem_cons.1 hs with rfl | hs
    · simp [Ctx.isCase]
    · simp [hr s hs]
  rw [hc, if_neg (by simp), execFrom_app_skip, stmtsOf, execFrom_hit rfl, execFrom_on]
  intro s hs
  obtain ⟨e, he, hs⟩ := List.mem_flatMap.1 hs
  rcases List.mem_cons.1 hs with rfl | hs
  · rfl
  · exact (hb e he s hs).2

theorem state_inj (hS : Setup S L) {s s' : State} (h : s ∈ S.m.states) (h' : s' ∈ S.m.states) (e : enumField S.U s.id = enumField S.U s'.id) :
    s = s' := List.inj_on_of_nodup_map hS.names.states h h' e

/-! ### names of states -/

theorem global_stateName {s : State} (h : s ∈ S.m.states) {this : Option (List Str)} :
    (cx S L fuel n [c!"state", c!"name"] this).global [c!"State", enumField S.U s.id] = some (stateVal S.U s.id) := by
  rw [global_eq]
  show (match ([[c!"state", c!"State", enumField S.U s.id], [c!"State", enumField S.U s.id]] : List (List Str)).findSome? (resolve S) with
    | some v => v
    | none => _) = _
  simp only [List.findSome?_cons, resolve_three c!"state" _ _ (by decide), resolve_state h]

theorem run_name (hS : Setup S L) {s : State} (hs : s ∈ S.m.states) {this : Option (List Str)} :
    callFn S.prog L fuel (n + 1) [c!"state", c!"name"] this [stateVal S.U s.id] st = .ok (.str s.id) st := by
  let C := cx S L fuel n [c!"state", c!"name"] this
  let st0 : St := { st with loc := [(c!"s", ty [c!"State"], stateVal S.U s.id)] }
  have hb : bindParams [(ty [c!"State"], c!"s")] [stateVal S.U s.id] = some [(c!"s", ty [c!"State"], stateVal S.U s.id)] := rfl
  have hn : evalE C (nm c!"s") st0 = .ok (stateVal S.U s.id) st0 := nm_local getLocal_one
  obtain ⟨tail, ht⟩ := switch_hit (C := C) (U := S.U) (key := State.id) (body := fun s => [.retVal (.str s.id)]) (rest := []) hs
    (fun e he => global_stateName he) (fun e he h => state_inj hS he hs h) (by
      intro e _ t ht
      rw [List.mem_singleton] at ht
      subst ht
      rfl)
  rw [List.append_nil] at ht
  have hx : execSs C (stateNameBody S.U S.m) st0 = .ok (.ret (.str s.id)) st0 := by
    unfold stateNameBody
    refine execSs_stop ?_ (by simp)
    refine (execS_switch (f := .ret (.str s.id)) hn ?_ rfl).trans rfl
    show execFrom C (if C.hasCase (stateVal S.U s.id) (stmtsOf (labelled S.U State.id (fun s => [.retVal (.str s.id)]) S.m.states)) then _ else _)
      false (stmtsOf (labelled S.U State.id (fun s => [.retVal (.str s.id)]) S.m.states)) st0 = _
    rw [ht]
    refine execSs_stop ?_ (by simp)
    rw [execS, bind_eq, bind_ok eval_str]
    rfl
  rw [callFn_run S.fn_state hb hx rfl]

theorem mem_stateName : (c!"stateName", Item.fn (some ⟨true, [c!"char"], [c!"*"]⟩) [SM, c!"stateName"] []
    (some (stmtsOf [.retVal (Tree.call [c!"state", c!"name"] [nm c!"state_"])]))) ∈ S.sm := by
  unfold Src.sm smFns helperItems
  simp

theorem run_stateName (hS : Setup S L) {s : State} (hs : s ∈ S.m.states) {p : List Str} (hm : st.mem (p ++ [c!"state_"]) = some (stateVal S.U s.id)) :
    callFn S.prog L fuel (n + 2) [SM, c!"stateName"] (some p) [] st = .ok (.str s.id) st := by
  let st0 : St := { st with loc := [] }
  have hn : evalE (cx S L fuel (n + 1) [SM, c!"stateName"] (some p)) (nm c!"state_") st0 = .ok (stateVal S.U s.id) st0 := eval_state_ rfl hm
  have hx : execSs (cx S L fuel (n + 1) [SM, c!"stateName"] (some p))
      (bodyOf (Item.fn (some ⟨true, [c!"char"], [c!"*"]⟩) [SM, c!"stateName"] []
        (some (stmtsOf [.retVal (Tree.call [c!"state", c!"name"] [nm c!"state_"])])))) st0 = .ok (.ret (.str s.id)) st0 := by
    refine execSs_stop ?_ (by simp)
    rw [execS, bind_eq, bind_ok (eval_call (c := [c!"state", c!"name"]) (by decide) (evalList_cons hn evalList_nil) ?_ (run_name hS hs))]
    · rfl
    · show ([[SM, c!"state", c!"name"], [c!"state", c!"name"]] : List (List Str)).find? _ = _
      rw [List.find?_cons, S.fn_deep, List.find?_cons, S.fn_state]
      rfl
  rw [callFn_run (fn_of hS mem_stateName) rfl hx rfl]

end

end Sem

end Cpp

end Spec

end Rtcg
