import Verif.Proofs.CppFns
import Verif.Proofs.HarnessTrack

/-
Running the generated program: the functions of class StateMachine that the others use.
-/

namespace Rtcg

namespace Spec

namespace Cpp

namespace Sem

open Templates Rtcg.Cpp Tmpl Tree

/-- What is needed of a machine and the libraries -/
structure Setup (S : Src) (L : Lib) : Prop where
  env : Lex.Env S.U S.v
  outcomes : ∀ o : Outcome, o.val.toNat < 4 → enumField S.U o.string = outcomeWord o
  names : GoodNames S.U S.v S.m
  lib : Provides L S.U S.v S.m
  verdicts : ∀ s ∈ S.m.states, ∀ e ∈ s.verdict, e.2.val.toNat < 4
  values : ∀ s ∈ S.m.states, ∀ ts ∈ s.transitionSets, ∀ t ∈ ts.transitions, t.value ≠ .none
  some_ : ∀ s ∈ S.m.states, ∀ ts ∈ s.transitionSets, ts.transitions ≠ []
  states : S.m.states ≠ []

/-- From one state to another: what was sent on the way, and whether ROS was shut down -/
structure Steps (v : Variant) (st st' : St) (sends : List Effect) (down : Bool) : Prop where
  loc : st'.loc = st.loc
  input : st'.input = st.input
  events : st'.events = st.events
  eff : ∃ new, st'.eff = st.eff ++ new ∧ new.filter (isSend v) = sends ∧ new.any isShutdown = down

theorem Steps.refl {v : Variant} {st : St} : Steps v st st [] false := ⟨rfl, rfl, rfl, [], by simp, rfl, rfl⟩

theorem Steps.trans {v : Variant} {st st1 st2 : St} {a b : List Effect} {d e : Bool} (h : Steps v st st1 a d) (h' : Steps v st1 st2 b e) :
    Steps v st st2 (a ++ b) (d || e) := by
  obtain ⟨l, i, v, n, e1, e2, e3⟩ := h
  obtain ⟨l', i', v', n', e1', e2', e3'⟩ := h'
  exact ⟨l'.trans l, i'.trans i, v'.trans v, n ++ n', by rw [e1', e1, List.append_assoc], by rw [List.filter_append, e2, e2'],
    by rw [List.any_append, e3, e3']⟩

/-- Steps do not depend on memory, or on which local variables stay -/
theorem Steps.congr {v : Variant} {st st1 st2 st3 : St} {a : List Effect} {d : Bool} (h : Steps v st1 st2 a d)
    (he : st1.eff = st.eff) (hi : st1.input = st.input) (hv : st1.events = st.events) (hl : st3.loc = st.loc) (he' : st3.eff = st2.eff)
    (hi' : st3.input = st2.input) (hv' : st3.events = st2.events) : Steps v st st3 a d := by
  obtain ⟨_, i, e, n, e1, e2, e3⟩ := h
  exact ⟨hl, by rw [hi', i, hi], by rw [hv', e, hv], n, by rw [he', e1, he], e2, e3⟩

/-- An effect that is neither sending nor shutting down -/
theorem Steps.one {v : Variant} {st : St} {e : Effect} (h : isSend v e = false) (h' : isShutdown e = false) :
    Steps v st { st with eff := st.eff ++ [e] } [] false := ⟨rfl, rfl, rfl, [e], rfl, by simp [h], by simp [h']⟩

theorem logEff_quiet {U : Unicode} {v : Variant} {level s : Str} {vs : List Val} (h : c!"(Actual value received by SUT on ".isPrefixOf s = false) :
    isSend v (logEff U v level (.str s :: vs)) = false ∧ isShutdown (logEff U v level (.str s :: vs)) = false := by
  unfold logEff
  split
  · rename_i hv
    subst hv
    exact ⟨rfl, rfl⟩
  · refine ⟨?_, rfl⟩
    unfold isSend
    simp only [List.cons_append, Bool.and_eq_false_iff]
    right
    split
    · rename_i e
      simp only [List.cons.injEq, Val.str.injEq] at e
      rw [← e.2.2.1]
      exact h
    · rfl

section

variable {S : Src} {L : Lib} {fuel n : Nat} {st : St}

theorem Setup.info (hS : Setup S L) : Levels S.U c!"info" := ⟨_, hS.env.info, .inl rfl⟩

theorem Setup.error (hS : Setup S L) : Levels S.U c!"error" := ⟨_, hS.env.error, .inr rfl⟩

theorem shallow_sm (f : Str) : Shallow [SM, f] := ⟨f, .inl rfl⟩

theorem shallow_verdict (f : Str) : Shallow [c!"Verdict", f] := ⟨f, .inr (.inl rfl)⟩

theorem shallow_main (f : Str) : Shallow [f] := ⟨f, .inr (.inr rfl)⟩

/-! ### the functions of the class -/

theorem sm_names (hS : Setup S L) : (S.sm.map (·.1)).Nodup := by
  have h := hS.names.members
  unfold Src.sm smFns
  unfold classMembers at h
  rw [List.nodup_iff_count_le_one] at h ⊢
  intro x
  have hx := h x
  have e1 : List.map (fun x : Str × Item => x.1) (if S.tc.firstStateHasIn = true then [(c!"initialDelayCallback", delayItem S.U S.v S.first)] else []) =
      if S.tc.firstStateHasIn = true then [c!"initialDelayCallback"] else [] := by split <;> rfl
  have e2 : List.map (fun x : Str × Item => x.1) (if S.tc.hasIn = true then [(c!"inputAcceptedCallback", acceptedItem S.U S.v S.tc.inMerged)] else []) =
      if S.tc.hasIn = true then [c!"inputAcceptedCallback"] else [] := by split <;> rfl
  simp only [List.map_append, List.map_map, e1, e2]
  simp only [helperItems, List.zip_cons_cons, List.zip_nil_right, List.map_cons, List.map_nil, inherited, List.count_append, List.count_cons,
    List.count_nil, SM] at hx ⊢
  have e3 : (List.map ((fun x => x.1) ∘ fun a : AggregateSet => (callbackName a.channel.name, outItem S.U S.v a)) S.tc.out) =
    List.map (fun a => callbackName a.channel.name) (TransitionContext.make S.m).out := rfl
  have e4 : (List.map ((fun x => x.1) ∘ fun s : State => (stateEntry S.U s.id, entryItem S.U S.v s)) S.m.states) =
    List.map (fun s => stateEntry S.U s.id) S.m.states := rfl
  have e5 : S.tc = TransitionContext.make S.m := rfl
  rw [e3, e4, e5]
  omega

/-- The function of a name -/
theorem fn_of (hS : Setup S L) {x : Str} {i : Item} (h : (x, i) ∈ S.sm) : S.prog.fn [SM, x] = some (paramsOf i, bodyOf i) := by
  rw [S.fn_sm]
  have := sm_names hS
  cases hf : S.sm.find? (fun f => f.1 = x) with
  | none =>
    have := List.find?_eq_none.1 hf _ h
    simp at this
  | some f =>
    have h1 := List.mem_of_find?_eq_some hf
    have h2 := List.find?_some hf
    simp only [decide_eq_true_eq] at h2
    have : f = (x, i) := List.inj_on_of_nodup_map this h1 h h2
    rw [this]
    rfl

theorem fn_not {x : Str} (h : x ∉ SM :: (inherited ++ classMembers S.U S.v S.m)) : S.prog.fn [SM, x] = none := by
  rw [S.fn_sm, Option.map_eq_none_iff, List.find?_eq_none]
  intro f hf he
  simp only [decide_eq_true_eq] at he
  apply h
  rw [← he]
  clear he h
  unfold Src.sm smFns at hf
  unfold classMembers
  have e5 : S.tc = TransitionContext.make S.m := rfl
  simp only [List.mem_append] at hf
  rcases hf with (((((hf | hf) | hf) | hf) | hf) | hf) | hf
  · simp only [List.mem_singleton] at hf
    subst hf
    simp
  · simp only [helperItems, List.zip_cons_cons, List.zip_nil_right, List.mem_cons, List.not_mem_nil, or_false] at hf
    rcases hf with hf | hf | hf <;> subst hf <;> simp
  · simp only [List.mem_singleton] at hf
    subst hf
    simp
  · split at hf
    · rename_i h
      simp only [List.mem_singleton] at hf
      subst hf
      rw [e5] at h
      simp [h]
    · cases hf
  · split at hf
    · rename_i h
      simp only [List.mem_singleton] at hf
      subst hf
      rw [e5] at h
      simp [h]
    · cases hf
  · obtain ⟨a, ha, rfl⟩ := List.mem_map.1 hf
    rw [e5] at ha
    have : callbackName a.channel.name ∈ (TransitionContext.make S.m).out.map (fun a => callbackName a.channel.name) := List.mem_map.2 ⟨a, ha, rfl⟩
    simp only [List.mem_cons, List.mem_append, this]
    simp
  · obtain ⟨s, hs, rfl⟩ := List.mem_map.1 hf
    have : stateEntry S.U s.id ∈ S.m.states.map (fun s => stateEntry S.U s.id) := List.mem_map.2 ⟨s, hs, rfl⟩
    simp only [List.mem_cons, List.mem_append, this]
    simp

/-! ### calls -/

/-- A call of a function of the class -/
theorem call_own (hS : Setup S L) {f x : Str} {i : Item} {p : List Str} {es : List Expr} {vs : List Val} {v : Val} {st1 st2 : St}
    (hx : (x, i) ∈ S.sm) (hm : isLogMacro [x] = false) (ha : evalList (cx S L fuel n [SM, f] (some p)) es st = .ok vs st1)
    (hv : callFn S.prog L fuel n [SM, x] (some p) vs st1 = .ok v st2) :
    evalE (cx S L fuel n [SM, f] (some p)) (Tree.call [x] es) st = .ok v st2 := by
  refine eval_call (c := [SM, x]) hm ha ?_ ?_
  · show ([[SM, x], [x]] : List (List Str)).find? _ = _
    rw [List.find?_cons]
    simp [fn_of hS hx]
  · have e : (if [SM, x].dropLast = [SM, f].dropLast then some p else none) = some p := if_pos rfl
    rw [e]
    exact hv

/-- `rtcg::status::isRunning(e)` -/
theorem eval_running {q : List Str} (hq : (∃ f, q = [SM, f]) ∨ ∃ f, q = [f]) {this : Option (List Str)} {e : Expr} {s : Status} {st1 : St}
    (h : evalE (cx S L fuel (n + 1) q this) e st = .ok (statusVal s) st1) :
    evalE (cx S L fuel (n + 1) q this) (running e) st = .ok (.bool s.isRunning) st1 := by
  unfold running
  refine eval_call (c := [c!"rtcg", c!"status", c!"isRunning"]) (by decide) (evalList_cons h evalList_nil) ?_ (run_isRunning s)
  rcases hq with ⟨f, rfl⟩ | ⟨f, rfl⟩
  · show ([[SM, c!"rtcg", c!"status", c!"isRunning"], [c!"rtcg", c!"status", c!"isRunning"]] : List (List Str)).find? _ = _
    rw [List.find?_cons, S.fn_deep, List.find?_cons, S.fn_isRunning]
    rfl
  · show ([[c!"rtcg", c!"status", c!"isRunning"]] : List (List Str)).find? _ = _
    rw [List.find?_cons, S.fn_isRunning]
    rfl

/-! ### fields -/

theorem field_any {x : Str} (h : x = c!"status_" ∨ x = c!"verdict_" ∨ x = c!"state_") :
    (S.prog.fields [SM]).any (fun f => f.2.1 = x) = true := by
  rw [S.fields_sm]
  unfold Src.smFieldList
  rcases h with rfl | rfl | rfl <;> simp

theorem eval_status_ {f : Str} {p : List Str} {s : Status} (hl : getLocal st c!"status_" = none)
    (hm : st.mem (p ++ [c!"status_"]) = some (statusVal s)) :
    evalE (cx S L fuel n [SM, f] (some p)) (nm c!"status_") st = .ok (statusVal s) st :=
  name_field hl (field_any (.inl rfl)) hm

theorem eval_state_ {f : Str} {p : List Str} {v : Val} (hl : getLocal st c!"state_" = none)
    (hm : st.mem (p ++ [c!"state_"]) = some v) :
    evalE (cx S L fuel n [SM, f] (some p)) (nm c!"state_") st = .ok v st :=
  name_field hl (field_any (.inr (.inr rfl))) hm

/-! ### StateMachine::end -/

/-- The status after trying to end with `s` -/
def endStatus (c s : Status) : Status := if !c.isRunning then c else if s.isRunning then .bug else s

def endItem (U : Unicode) (v : Variant) : Item :=
  .fn (some void) [SM, c!"end"] [(ty [c!"rtcg", c!"Status"], c!"s")]
    (some (stmtsOf ([
      .ite (.un c!"!" (running (nm c!"status_"))) (.block (stmtsOf [
        logged U v c!"error" (.str c!"Tried to end test twice (first as ") [nm c!"status_", .str c!", then as ", nm c!"s", .str c!"."],
        .ret])) .skip,
      .ite (running (nm c!"s")) (.block (stmtsOf [
        logged U v c!"error" (.str c!"Tried to end with a non-ending status ") [nm c!"s", .str c!"."],
        .expr (.assign (nm c!"s") (status c!"BUG"))])) .skip,
      .expr (.assign (nm c!"status_") (nm c!"s"))] ++
      (if v = Variant.ros then [.expr (Tree.call [c!"ros", c!"shutdown"] [])] else []))))

theorem mem_end : (c!"end", endItem S.U S.v) ∈ S.sm := by
  unfold Src.sm smFns helperItems endItem
  simp

/-- A function of a library whose name has two parts, from inside the class or outside -/
theorem call_lib2 {q : List Str} (hq : (∃ f, q = [SM, f]) ∨ ∃ f, q = [f]) {this : Option (List Str)} {a b : Str} {es : List Expr}
    {vs : List Val} {st1 : St} (ha : evalList (cx S L fuel n q this) es st = .ok vs st1) (h1 : a = c!"ros") (h2 : b ≠ c!"spin")
    (hk : L.takes [a, b] vs.length = true) :
    evalE (cx S L fuel n q this) (Tree.call [a, b] es) st = .ok (L.val [a, b] vs) { st1 with eff := st1.eff ++ [.call [a, b] vs] } := by
  subst h1
  refine eval_lib (by rfl) ha ?_ (by simp [h2]) hk
  have h0 : S.prog.fn [c!"ros", b] = none := S.fn_other (by simp) (by simp) (by simp) (by simp) (by simp [SM]) (by simp)
  rcases hq with ⟨f, rfl⟩ | ⟨f, rfl⟩
  · show ([[SM, c!"ros", b], [c!"ros", b]] : List (List Str)).find? _ = _
    rw [List.find?_cons, S.fn_deep, List.find?_cons, h0]
    rfl
  · show ([[c!"ros", b]] : List (List Str)).find? _ = _
    rw [List.find?_cons, h0]
    rfl

theorem run_end (hS : Setup S L) {p : List Str} {c : Status} (hm : st.mem (p ++ [c!"status_"]) = some (statusVal c)) (s : Status) :
    ∃ st', callFn S.prog L fuel (n + 2) [SM, c!"end"] (some p) [statusVal s] st = .ok .void st' ∧
      Steps S.v st st' [] (decide (S.v = .ros) && c.isRunning) ∧ st'.mem = upd st.mem (p ++ [c!"status_"]) (statusVal (endStatus c s)) := by
  let T := ty [c!"rtcg", c!"Status"]
  let C := cx S L fuel (n + 1) [SM, c!"end"] (some p)
  let st0 : St := { st with loc := [(c!"s", T, statusVal s)] }
  have hb : bindParams [(T, c!"s")] [statusVal s] = some [(c!"s", T, statusVal s)] := rfl
  have hf : S.prog.fn [SM, c!"end"] = some ([(T, c!"s")], bodyOf (endItem S.U S.v)) := fn_of hS mem_end
  have l0 : getLocal st0 c!"status_" = none := rfl
  have hst : evalE C (nm c!"status_") st0 = .ok (statusVal c) st0 := eval_status_ l0 hm
  have hs0 : evalE C (nm c!"s") st0 = .ok (statusVal s) st0 := nm_local getLocal_one
  have hc : evalE C (.un c!"!" (running (nm c!"status_"))) st0 = .ok (.bool (!c.isRunning)) st0 := eval_not (eval_running (.inl ⟨_, rfl⟩) hst)
  by_cases hr : c.isRunning = true
  · -- it ends
    have e1 : endStatus c s = if s.isRunning then .bug else s := by unfold endStatus; rw [hr]; rfl
    -- the first test
    rw [hr] at hc
    have h1 := execS_ite (a := .block (stmtsOf [
        logged S.U S.v c!"error" (.str c!"Tried to end test twice (first as ") [nm c!"status_", .str c!", then as ", nm c!"s", .str c!"."],
        .ret])) (b := .skip) hc
    rw [if_neg (by simp), inScope_skip] at h1
    -- the second test
    have h2 : ∃ st1 : St, st1.loc = [(c!"s", T, statusVal (endStatus c s))] ∧ st1.mem = st.mem ∧ Steps S.v st { st1 with loc := st.loc } [] false ∧
        execS C (.ite (running (nm c!"s")) (.block (stmtsOf [
          logged S.U S.v c!"error" (.str c!"Tried to end with a non-ending status ") [nm c!"s", .str c!"."],
          .expr (.assign (nm c!"s") (status c!"BUG"))])) .skip) st0 = .ok .next st1 := by
      rw [execS_ite (eval_running (.inl ⟨_, rfl⟩) hs0), e1]
      by_cases hs : s.isRunning = true
      · rw [if_pos hs, if_pos hs]
        have hl := exec_logged (S := S) (fuel := fuel) (n := n + 1) (this := some p) (shallow_sm c!"end") hS.lib hS.error
          (evalList_cons (eval_str (st := st0) (s := c!"Tried to end with a non-ending status "))
            (evalList_cons hs0 (evalList_cons (eval_str (s := c!".")) evalList_nil)))
        generalize hv : logEff S.U S.v c!"error" [.str c!"Tried to end with a non-ending status ", statusVal s, .str c!"."] = e at hl
        have hq : isSend S.v e = false ∧ isShutdown e = false := by rw [← hv]; exact logEff_quiet (by decide)
        let st1 : St := { st0 with eff := st0.eff ++ [e] }
        have ha : evalE C (.assign (nm c!"s") (status c!"BUG")) st1 = .ok (statusVal .bug) { st1 with loc := setIn c!"s" (statusVal .bug) st1.loc } :=
          assign_local (eval_status (shallow_sm _) .bug) (l := (T, statusVal s)) rfl
        refine ⟨{ st1 with loc := setIn c!"s" (statusVal .bug) st1.loc }, rfl, rfl,
          (Steps.one (st := st) hq.1 hq.2).congr rfl rfl rfl rfl rfl rfl rfl, ?_⟩
        exact inScope_len (execS_block ((execSs_cons hl).trans (execSs_cons (execS_expr ha))) rfl) rfl
      · rw [if_neg hs, if_neg hs]
        exact ⟨st0, rfl, rfl, Steps.refl.congr rfl rfl rfl rfl rfl rfl rfl, inScope_skip⟩
    obtain ⟨st1, l1, m1, s1, h2⟩ := h2
    have hs1 : evalE C (nm c!"s") st1 = .ok (statusVal (endStatus c s)) st1 :=
      nm_local (l := (T, statusVal (endStatus c s))) (by unfold getLocal; rw [l1]; rfl)
    have h3 : evalE C (.assign (nm c!"status_") (nm c!"s")) st1 = .ok (statusVal (endStatus c s))
        { st1 with mem := upd st1.mem (p ++ [c!"status_"]) (statusVal (endStatus c s)) } :=
      assign_field hs1 (by unfold getLocal; rw [l1]; rfl) (field_any (.inl rfl))
    let st2 : St := { st1 with mem := upd st1.mem (p ++ [c!"status_"]) (statusVal (endStatus c s)) }
    by_cases hv : S.v = Variant.ros
    · have h4 : evalE C (Tree.call [c!"ros", c!"shutdown"] []) st2 = .ok _ { st2 with eff := st2.eff ++ [.call [c!"ros", c!"shutdown"] []] } :=
        call_lib2 (.inl ⟨_, rfl⟩) evalList_nil rfl (by decide) ((hS.lib.ros hv).2.1 ([c!"ros", c!"shutdown"], 0) (by decide))
      have hx : execSs C (bodyOf (endItem S.U S.v)) st0 = .ok .next { st2 with eff := st2.eff ++ [.call [c!"ros", c!"shutdown"] []] } := by
        unfold endItem bodyOf
        rw [if_pos hv]
        exact (execSs_cons h1).trans ((execSs_cons h2).trans ((execSs_cons (execS_expr h3)).trans (execSs_cons (execS_expr h4))))
      refine ⟨_, callFn_run hf hb hx rfl, ?_, ?_⟩
      · have : Steps S.v { st1 with loc := st.loc }
            { { st1 with loc := st.loc } with eff := st1.eff ++ [.call [c!"ros", c!"shutdown"] []] } [] true :=
          ⟨rfl, rfl, rfl, [.call [c!"ros", c!"shutdown"] []], rfl, by simp [isSend], by simp [isShutdown]⟩
        have h := s1.trans this
        rw [hv, hr]
        rw [hv] at h
        exact h.congr rfl rfl rfl rfl rfl rfl rfl
      · show upd st1.mem _ _ = _
        rw [m1]
    · have hx : execSs C (bodyOf (endItem S.U S.v)) st0 = .ok .next st2 := by
        unfold endItem bodyOf
        rw [if_neg hv]
        exact (execSs_cons h1).trans ((execSs_cons h2).trans (execSs_cons (execS_expr h3)))
      refine ⟨_, callFn_run hf hb hx rfl, ?_, ?_⟩
      · rw [decide_eq_false hv]
        exact s1.congr rfl rfl rfl rfl rfl rfl rfl
      · show upd st1.mem _ _ = _
        rw [m1]
  · -- it has ended
    have e1 : endStatus c s = c := by unfold endStatus; simp [hr]
    have hl := exec_logged (S := S) (fuel := fuel) (n := n + 1) (this := some p) (shallow_sm c!"end") hS.lib hS.error
      (evalList_cons (eval_str (st := st0) (s := c!"Tried to end test twice (first as "))
        (evalList_cons hst (evalList_cons (eval_str (s := c!", then as ")) (evalList_cons hs0 (evalList_cons (eval_str (s := c!".")) evalList_nil)))))
    generalize hv : logEff S.U S.v c!"error" (.str c!"Tried to end test twice (first as " :: _) = e at hl
    have hq : isSend S.v e = false ∧ isShutdown e = false := by rw [← hv]; exact logEff_quiet (by decide)
    let st1 : St := { st0 with eff := st0.eff ++ [e] }
    have hx : execSs C (bodyOf (endItem S.U S.v)) st0 = .ok (.ret .void) st1 := by
      unfold endItem bodyOf
      refine execSs_stop ?_ (by simp)
      rw [execS_ite hc, if_pos (by simp [hr])]
      exact inScope_len (execS_block ((execSs_cons hl).trans (execSs_stop rfl (by simp))) rfl) rfl
    refine ⟨_, callFn_run hf hb hx rfl, ?_, ?_⟩
    · rw [show c.isRunning = false by simpa using hr, Bool.and_false]
      exact (Steps.one (st := st) hq.1 hq.2).congr rfl rfl rfl rfl rfl rfl rfl
    · rw [e1, upd_noop hm]

end

end Sem

end Cpp

end Spec

end Rtcg
