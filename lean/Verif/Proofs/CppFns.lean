import Verif.Proofs.CppSem
import Verif.Proofs.CppOk

/-
Running the generated program: names, logging and the functions of the prelude.
-/

namespace Rtcg

namespace Spec

namespace Cpp

namespace Sem

open Templates Rtcg.Cpp Tmpl Tree

section

variable {S : Src} {L : Lib} {fuel n : Nat} {this : Option (List Str)} {st : St}

/-! ### names outside -/

/-- What a full name stands for -/
def resolve (S : Src) (c : List Str) : Option (Option Val) :=
  if S.prog.isEnum c then some (some (Val.enum c))
  else match S.prog.var c with
    | some (some (.num w)) => some ((number w).map .int)
    | some _ => some none
    | none => none

theorem global_eq (q q' : List Str) : (cx S L fuel n q this).global q' =
    match (candidates q.dropLast q').findSome? (resolve S) with
    | some v => v
    | none => if L.known q' then some (.glob q') else none := rfl

theorem resolve_none {c : List Str} (h : S.prog.isEnum c = false) (h' : S.prog.var c = none) : resolve S c = none := by
  unfold resolve; rw [h, h']; rfl

theorem resolve_enum {c : List Str} (h : S.prog.isEnum c = true) : resolve S c = some (some (.enum c)) := by
  unfold resolve; rw [h]; rfl

theorem resolve_long (a b c d : Str) (l : List Str) : resolve S (a :: b :: c :: d :: l) = none :=
  resolve_none (isEnum_four a b c d l) S.var_long

theorem resolve_three (a b c : Str) (h : a ≠ c!"rtcg") : resolve S [a, b, c] = none :=
  resolve_none (by rw [isEnum_last]; simp [h]) S.var_long

theorem resolve_two (a b : Str) (h : a ≠ c!"State") : resolve S [a, b] = none :=
  resolve_none (by rw [isEnum_two]; simp [h]) S.var_long

theorem resolve_status {w : Str} (h : w ∈ statusNames) : resolve S [c!"rtcg", c!"Status", w] = some (some (.enum [c!"rtcg", c!"Status", w])) :=
  resolve_enum (by rw [isEnum_last]; simp [h])

theorem resolve_outcome {w : Str} (h : w ∈ outcomeNames) : resolve S [c!"rtcg", c!"Outcome", w] = some (some (.enum [c!"rtcg", c!"Outcome", w])) :=
  resolve_enum (by rw [isEnum_last]; simp [h])

theorem resolve_state {s : State} (h : s ∈ S.m.states) : resolve S [c!"State", enumField S.U s.id] = some (some (stateVal S.U s.id)) :=
  resolve_enum (by
    rw [isEnum_two]
    simp only [decide_true, Bool.true_and, List.contains_eq_mem, decide_eq_true_eq]
    exact List.mem_map.2 ⟨s, h, rfl⟩)

/-- In a class, or outside -/
def Shallow (q : List Str) : Prop := ∃ f, q = [SM, f] ∨ q = [c!"Verdict", f] ∨ q = [f]

theorem candidates_shallow {q : List Str} (h : Shallow q) (x : Str) (l : List Str) :
    candidates q.dropLast (x :: l) = [SM :: x :: l, x :: l] ∨ candidates q.dropLast (x :: l) = [c!"Verdict" :: x :: l, x :: l] ∨
      candidates q.dropLast (x :: l) = [x :: l] := by
  obtain ⟨f, rfl | rfl | rfl⟩ := h
  · exact .inl rfl
  · exact .inr (.inl rfl)
  · exact .inr (.inr rfl)

theorem global_status {q : List Str} (hq : Shallow q) {w : Str} (h : w ∈ statusNames) :
    (cx S L fuel n q this).global [c!"rtcg", c!"Status", w] = some (.enum [c!"rtcg", c!"Status", w]) := by
  rw [global_eq]
  rcases candidates_shallow hq c!"rtcg" [c!"Status", w] with e | e | e <;> rw [e] <;>
    simp only [List.findSome?_cons, resolve_long, resolve_status h]

theorem global_outcome {q : List Str} (hq : Shallow q) {w : Str} (h : w ∈ outcomeNames) :
    (cx S L fuel n q this).global [c!"rtcg", c!"Outcome", w] = some (.enum [c!"rtcg", c!"Outcome", w]) := by
  rw [global_eq]
  rcases candidates_shallow hq c!"rtcg" [c!"Outcome", w] with e | e | e <;> rw [e] <;>
    simp only [List.findSome?_cons, resolve_long, resolve_outcome h]

theorem global_state {q : List Str} (hq : Shallow q) {s : State} (h : s ∈ S.m.states) :
    (cx S L fuel n q this).global [c!"State", enumField S.U s.id] = some (stateVal S.U s.id) := by
  rw [global_eq]
  rcases candidates_shallow hq c!"State" [enumField S.U s.id] with e | e | e <;> rw [e] <;>
    simp only [List.findSome?_cons, resolve_three SM _ _ (by decide), resolve_three c!"Verdict" _ _ (by decide), resolve_state h]

theorem global_std {q : List Str} (hq : Shallow q) {w : Str} (h : L.known [c!"std", w] = true) :
    (cx S L fuel n q this).global [c!"std", w] = some (.glob [c!"std", w]) := by
  rw [global_eq]
  rcases candidates_shallow hq c!"std" [w] with e | e | e <;> rw [e] <;>
    simp only [List.findSome?_cons, List.findSome?_nil, resolve_three SM _ _ (by decide), resolve_three c!"Verdict" _ _ (by decide),
      resolve_two c!"std" w (by decide), h, if_true]

theorem status_mem (s : Status) : statusWord s ∈ statusNames := by cases s <;> decide

theorem outcome_mem (o : Outcome) : outcomeWord o ∈ outcomeNames := by
  unfold outcomeWord; split
  · decide
  · split
    · decide
    · split <;> decide

theorem eval_status {q : List Str} (hq : Shallow q) (s : Status) :
    evalE (cx S L fuel n q this) (status (statusWord s)) st = .ok (statusVal s) st :=
  name_global (global_status hq (status_mem s)) (by simp)

theorem eval_outcome {q : List Str} (hq : Shallow q) (o : Outcome) :
    evalE (cx S L fuel n q this) (.name [c!"rtcg", c!"Outcome", outcomeWord o]) st = .ok (outcomeVal o) st :=
  name_global (global_outcome hq (outcome_mem o)) (by simp)

theorem eval_state {q : List Str} (hq : Shallow q) {s : State} (h : s ∈ S.m.states) :
    evalE (cx S L fuel n q this) (stateE S.U s.id) st = .ok (stateVal S.U s.id) st :=
  name_global (global_state hq h) (by simp)

theorem eval_std {q : List Str} (hq : Shallow q) {w : Str} (h : L.known [c!"std", w] = true) :
    evalE (cx S L fuel n q this) (.name [c!"std", w]) st = .ok (.glob [c!"std", w]) st :=
  name_global (global_std hq h) (by simp)

theorem eval_str {C : Ctx} {s : Str} : evalE C (.str s) st = .ok (.str s) st := by rw [evalE]; rfl

theorem eval_bool {C : Ctx} {b : Bool} : evalE C (.bool b) st = .ok (.bool b) st := by rw [evalE]; rfl

/-! ### logging -/

/-- The levels of logging -/
def Levels (U : Unicode) (level : Str) : Prop := ∃ w, U.strToUpper level = w ∧ (w = c!"INFO" ∨ w = c!"ERROR")

theorem levels_macro {U : Unicode} {level : Str} (h : Levels U level) : isLogMacro [c!"ROS_" ++ U.strToUpper level ++ c!"_STREAM"] = true := by
  obtain ⟨w, hw, rfl | rfl⟩ := h <;> rw [hw] <;> decide

theorem exec_logged {q : List Str} (hq : Shallow q) (hL : Provides L S.U S.v S.m) {level : Str} (hl : Levels S.U level) {first : Expr}
    {more : List Expr} {vs : List Val} {st1 : St} (h : evalList (cx S L fuel n q this) (first :: more) st = .ok vs st1) :
    execS (cx S L fuel n q this) (logged S.U S.v level first more) st =
      .ok .next { st1 with eff := st1.eff ++ [logEff S.U S.v level vs] } := by
  have he : L.known [c!"std", c!"endl"] = true := hL.std _ (by decide)
  have hc : L.known [c!"std", c!"cerr"] = true := hL.std _ (by decide)
  have h2 : evalList (cx S L fuel n q this) (first :: (more ++ [.name [c!"std", c!"endl"]])) st = .ok (vs ++ [.glob [c!"std", c!"endl"]]) st1 := by
    have := evalList_append h (evalList_cons (eval_std hq he) evalList_nil)
    simpa using this
  by_cases hv : S.v = Variant.ros
  · have e : logged S.U S.v level first more =
        .expr (call [c!"ROS_" ++ S.U.strToUpper level ++ c!"_STREAM"] [.shift first (outs (more ++ [.name [c!"std", c!"endl"]]))]) := if_pos hv
    rw [e]
    apply execS_expr (v := .void)
    unfold Tree.call
    rw [eval_macro (levels_macro hl)]
    have e2 : evalLog (cx S L fuel n q this) (argsOf [.shift first (outs (more ++ [.name [c!"std", c!"endl"]]))]) st =
        .ok (vs ++ [.glob [c!"std", c!"endl"]]) st1 := by
      rw [argsOf, argsOf, evalLog, evalT_outs]
      rw [evalList] at h2
      exact h2
    rw [bind_ok e2]
    unfold logEff
    rw [if_pos hv]
    rfl
  · have e : logged S.U S.v level first more =
        .expr (.shift (.name [c!"std", c!"cerr"]) (outs (.str (c!"[" ++ level ++ c!"] ") :: first :: (more ++ [.name [c!"std", c!"endl"]])))) :=
      if_neg hv
    rw [e]
    apply execS_expr (v := .void)
    rw [evalE, if_neg (by decide), evalT_outs, bind_eq, bind_ok (eval_std hq hc), bind_eq, bind_ok (evalList_cons eval_str h2)]
    unfold logEff
    rw [if_neg hv]
    rfl

/-! ### functions of the prelude -/

theorem getLocal_one {x : Str} {t : CType} {v : Val} {st : St} : getLocal { st with loc := [(x, t, v)] } x = some (t, v) := by
  unfold getLocal
  simp

theorem resolve_short {w : Str} : resolve S [c!"Status", w] = none := resolve_two _ _ (by decide)

/-- The value of `Status::X` inside of `rtcg::status` -/
theorem global_inner {f w : Str} (h : w ∈ statusNames) :
    (cx S L fuel n [c!"rtcg", c!"status", f] this).global [c!"Status", w] = some (.enum [c!"rtcg", c!"Status", w]) := by
  rw [global_eq]
  show (match [[c!"rtcg", c!"status", c!"Status", w], [c!"rtcg", c!"Status", w], [c!"Status", w]].findSome? (resolve S) with
    | some v => v
    | none => _) = _
  simp only [List.findSome?_cons, resolve_long, resolve_status h]

theorem global_innerFull {f w : Str} (h : w ∈ statusNames) :
    (cx S L fuel n [c!"rtcg", c!"status", f] this).global [c!"rtcg", c!"Status", w] = some (.enum [c!"rtcg", c!"Status", w]) := by
  rw [global_eq]
  show (match [[c!"rtcg", c!"status", c!"rtcg", c!"Status", w], [c!"rtcg", c!"rtcg", c!"Status", w], [c!"rtcg", c!"Status", w]].findSome?
    (resolve S) with
    | some v => v
    | none => _) = _
  simp only [List.findSome?_cons, resolve_long, resolve_status h]

theorem run_isRunning (s : Status) :
    callFn S.prog L fuel (n + 1) [c!"rtcg", c!"status", c!"isRunning"] this [statusVal s] st = .ok (.bool s.isRunning) st := by
  have hloc : bindParams [(ty [c!"rtcg", c!"Status"], c!"s")] [statusVal s] = some [(c!"s", ty [c!"rtcg", c!"Status"], statusVal s)] := rfl
  let C := cx S L fuel n [c!"rtcg", c!"status", c!"isRunning"] this
  have hn : evalE C (nm c!"s") { st with loc := [(c!"s", ty [c!"rtcg", c!"Status"], statusVal s)] } = .ok (statusVal s) _ := nm_local getLocal_one
  have g1 : C.global [c!"Status", c!"WAIT_START"] = _ := global_inner (by decide)
  have g2 : C.global [c!"Status", c!"WAIT_IN"] = _ := global_inner (by decide)
  have g3 : C.global [c!"Status", c!"WAIT_OUT"] = _ := global_inner (by decide)
  have hb : execSs C isRunningBody { st with loc := [(c!"s", ty [c!"rtcg", c!"Status"], statusVal s)] } =
      .ok (.ret (.bool s.isRunning)) { st with loc := [(c!"s", ty [c!"rtcg", c!"Status"], statusVal s)] } := by
    unfold isRunningBody
    refine execSs_stop ?_ (by simp)
    refine (execS_switch (f := .ret (.bool s.isRunning)) hn ?_ rfl).trans ?_
    · have hc : ∀ w, C.isCase (statusVal s) (.case (.name [c!"Status", w])) = decide (C.global [c!"Status", w] = some (statusVal s)) := fun _ => rfl
      cases s <;>
        simp [stmtsOf, Ctx.hasCase, hc, g1, g2, g3, statusVal, statusWord, Ctx.isCase, execFrom, isDefault, execS, eval_bool, bind_eq, M.bind,
          M.ret, Status.isRunning]
    · rfl
  rw [callFn_run S.fn_isRunning hloc hb rfl]

theorem run_exitCode (s : Status) :
    callFn S.prog L fuel (n + 1) [c!"rtcg", c!"status", c!"exitCode"] this [statusVal s] st = .ok (.int s.exitCode) st := by
  have hloc : bindParams [(ty [c!"rtcg", c!"Status"], c!"s")] [statusVal s] = some [(c!"s", ty [c!"rtcg", c!"Status"], statusVal s)] := rfl
  let C := cx S L fuel n [c!"rtcg", c!"status", c!"exitCode"] this
  have hn : evalE C (nm c!"s") { st with loc := [(c!"s", ty [c!"rtcg", c!"Status"], statusVal s)] } = .ok (statusVal s) _ := nm_local getLocal_one
  have g1 : C.global [c!"rtcg", c!"Status", c!"FAIL"] = _ := global_innerFull (by decide)
  have g2 : C.global [c!"rtcg", c!"Status", c!"BUG"] = _ := global_innerFull (by decide)
  have hd : ∀ (st : St) (w : Str) (i : Nat), digits w = some i → evalE C (.num w) st = .ok (.int i) st := by
    intro st w i h
    rw [evalE, h]
    rfl
  have d0 := fun st => hd st c!"0" 0 (by decide)
  have d1 := fun st => hd st c!"1" 1 (by decide)
  have d2 := fun st => hd st c!"2" 2 (by decide)
  have hb : execSs C exitCodeBody { st with loc := [(c!"s", ty [c!"rtcg", c!"Status"], statusVal s)] } =
      .ok (.ret (.int s.exitCode)) { st with loc := [(c!"s", ty [c!"rtcg", c!"Status"], statusVal s)] } := by
    unfold exitCodeBody
    refine execSs_stop ?_ (by simp)
    refine (execS_switch (f := .ret (.int s.exitCode)) hn ?_ rfl).trans ?_
    · have hc : ∀ w, C.isCase (statusVal s) (.case (.name [c!"rtcg", c!"Status", w])) = decide (C.global [c!"rtcg", c!"Status", w] = some (statusVal s)) := fun _ => rfl
      cases s <;>
        simp [stmtsOf, Tree.status, Ctx.hasCase, hc, g1, g2, statusVal, statusWord, Ctx.isCase, execFrom, isDefault, execS, d0, d1, d2, bind_eq, M.bind,
          M.ret, Status.exitCode]
    · rfl
  rw [callFn_run S.fn_exitCode hloc hb rfl]

end

end Sem

end Cpp

end Spec

end Rtcg
