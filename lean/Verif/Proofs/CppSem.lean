import Verif.Proofs.CppProg
import Verif.Spec.CppHarness

/-
Running the generated program: expressions and statements that it is made of.
-/

namespace Rtcg

namespace Spec

namespace Cpp

namespace Sem

open Templates Rtcg.Cpp Tmpl Tree

/-! ### the monad -/

theorem bind_eq {α β : Type} (m : M α) (f : α → M β) : (m >>= f) = M.bind m f := rfl

theorem bind_ok {α β : Type} {m : M α} {f : α → M β} {st st' : St} {a : α} (h : m st = .ok a st') : M.bind m f st = f a st' := by
  unfold M.bind; rw [h]

/-- Memory with one place changed -/
def upd (mem : List Str → Option Val) (p : List Str) (v : Val) : List Str → Option Val := fun q => if q = p then some v else mem q

theorem upd_same (mem : List Str → Option Val) (p : List Str) (v : Val) : upd mem p v p = some v := if_pos rfl

theorem upd_other {mem : List Str → Option Val} {p q : List Str} {v : Val} (h : q ≠ p) : upd mem p v q = mem q := if_neg h

theorem upd_noop {mem : List Str → Option Val} {p : List Str} {v : Val} (h : mem p = some v) : upd mem p v = mem := by
  funext q
  unfold upd
  split
  · rename_i e; rw [e, h]
  · rfl

/-! ### lists of expressions and statements -/

def evalList (C : Ctx) : List Expr → M (List Val)
  | [] => M.ret []
  | e :: es => do
    let v ← evalE C e
    let vs ← evalList C es
    M.ret (v :: vs)

theorem evalA_argsOf (C : Ctx) (es : List Expr) : evalA C (argsOf es) = evalList C es := by
  induction es with
  | nil => rfl
  | cons e es ih => rw [argsOf, evalA, evalList, ih]

theorem evalT_outs (C : Ctx) (es : List Expr) : evalT C (outs es) = evalList C es := by
  induction es with
  | nil => rfl
  | cons e es ih => rw [outs, evalT, evalList, ih, if_pos rfl]

theorem evalList_nil {C : Ctx} {st : St} : evalList C [] st = .ok [] st := rfl

theorem evalList_cons {C : Ctx} {st st1 st2 : St} {e : Expr} {es : List Expr} {v : Val} {vs : List Val} (h : evalE C e st = .ok v st1)
    (h' : evalList C es st1 = .ok vs st2) : evalList C (e :: es) st = .ok (v :: vs) st2 := by
  rw [evalList, bind_eq, bind_ok h, bind_eq, bind_ok h']
  rfl

theorem evalList_append {C : Ctx} {st st1 st2 : St} {es fs : List Expr} {vs ws : List Val} (h : evalList C es st = .ok vs st1)
    (h' : evalList C fs st1 = .ok ws st2) : evalList C (es ++ fs) st = .ok (vs ++ ws) st2 := by
  induction es generalizing st vs with
  | nil =>
    cases h
    exact h'
  | cons e es ih =>
    rw [evalList, bind_eq] at h
    unfold M.bind at h
    cases he : evalE C e st with
    | wait => rw [he] at h; cases h
    | wrong => rw [he] at h; cases h
    | ok v st3 =>
      rw [he] at h
      simp only [bind_eq] at h
      unfold M.bind at h
      cases hs : evalList C es st3 with
      | wait => rw [hs] at h; cases h
      | wrong => rw [hs] at h; cases h
      | ok us st4 =>
        rw [hs] at h
        cases h
        exact evalList_cons he (ih hs)

theorem execSs_cons {C : Ctx} {s : Stmt} {ss : Stmts} {st st' : St} (h : execS C s st = .ok .next st') :
    execSs C (.cons s ss) st = execSs C ss st' := by
  rw [execSs, bind_eq, bind_ok h]

theorem execSs_stop {C : Ctx} {s : Stmt} {ss : Stmts} {st st' : St} {f : Flow} (h : execS C s st = .ok f st') (hf : f ≠ .next) :
    execSs C (.cons s ss) st = .ok f st' := by
  rw [execSs, bind_eq, bind_ok h]
  cases f with
  | next => exact absurd rfl hf
  | brk => rfl
  | ret v => rfl

theorem execSs_nil {C : Ctx} {st : St} : execSs C .nil st = .ok .next st := rfl

theorem execSs_append {C : Ctx} {a b : List Stmt} {st st' : St} (h : execSs C (stmtsOf a) st = .ok .next st') :
    execSs C (stmtsOf (a ++ b)) st = execSs C (stmtsOf b) st' := by
  induction a generalizing st with
  | nil => cases h; rfl
  | cons s a ih =>
    show execSs C (.cons s (stmtsOf (a ++ b))) st = _
    rw [stmtsOf, execSs, bind_eq] at h
    unfold M.bind at h
    rw [execSs, bind_eq]
    unfold M.bind
    cases hs : execS C s st with
    | wait => rw [hs] at h; cases h
    | wrong => rw [hs] at h; cases h
    | ok f st1 =>
      rw [hs] at h
      cases f with
      | next => exact ih h
      | brk => cases h
      | ret v => cases h

theorem execS_expr {C : Ctx} {e : Expr} {v : Val} {st st' : St} (h : evalE C e st = .ok v st') : execS C (.expr e) st = .ok .next st' := by
  rw [execS, bind_eq, bind_ok h]
  rfl

theorem inScope_ok {α : Type} {m : M α} {st st' : St} {a : α} (h : m st = .ok a st') (hl : st'.loc.drop (st'.loc.length - st.loc.length) = st.loc) :
    inScope m st = .ok a { st' with loc := st.loc } := by
  unfold inScope; rw [h]; simp only [hl]

/-- Nothing declared, nothing to forget -/
theorem inScope_same {α : Type} {m : M α} {st st' : St} {a : α} (h : m st = .ok a st') (hl : st'.loc = st.loc) :
    inScope m st = .ok a st' := by
  rw [inScope_ok h (by rw [hl]; simp), ← hl]

/-- As many local variables as before: none to forget -/
theorem inScope_len {α : Type} {m : M α} {st st' : St} {a : α} (h : m st = .ok a st') (hl : st'.loc.length = st.loc.length) :
    inScope m st = .ok a st' := by
  unfold inScope
  rw [h]
  simp only [hl, Nat.sub_self, List.drop_zero]

theorem execS_block {C : Ctx} {b : Stmts} {st st' : St} {f : Flow} (h : execSs C b st = .ok f st') (hl : st'.loc.length = st.loc.length) :
    execS C (.block b) st = .ok f st' := by
  rw [execS]
  exact inScope_len h hl

theorem execS_ite {C : Ctx} {c : Expr} {a b : Stmt} {r : Bool} {st st1 : St} (h : evalE C c st = .ok (.bool r) st1) :
    execS C (.ite c a b) st = if r then inScope (execS C a) st1 else inScope (execS C b) st1 := by
  rw [execS, bind_eq, bind_ok h, bind_eq]
  show (if r = true then inScope (execS C a) else inScope (execS C b)) st1 = _
  cases r <;> rfl

theorem execS_skip {C : Ctx} {st : St} : execS C .skip st = .ok .next st := rfl

theorem inScope_skip {C : Ctx} {st : St} : inScope (execS C .skip) st = .ok .next st := inScope_same execS_skip rfl

theorem inScope_ret {C : Ctx} {st : St} : inScope (execS C .ret) st = .ok (.ret .void) st := inScope_same rfl rfl

/-! ### the context of a function -/

section

variable (S : Src) (L : Lib) (fuel : Nat)

/-- Inside the function `q`, working on `this`, with `n` calls to go -/
def cx (n : Nat) (q : List Str) (this : Option (List Str)) : Ctx :=
  ⟨S.prog, L, q, this, fuel, callFn S.prog L fuel n, makeObj S.prog L fuel n⟩

variable {S L fuel}

theorem callFn_run {n : Nat} {q : List Str} {this : Option (List Str)} {args : List Val} {ps : List Param} {b : Stmts}
    {loc : List (Str × CType × Val)} {st st' : St} {f : Flow} {v : Val} (hf : S.prog.fn q = some (ps, b)) (hb : bindParams ps args = some loc)
    (hx : execSs (cx S L fuel n q this) b { st with loc := loc } = .ok f st') (hr : result f = M.ret v) :
    callFn S.prog L fuel (n + 1) q this args st = .ok v { st' with loc := st.loc } := by
  rw [callFn]
  simp only [hf, hb]
  unfold framed
  have : ((execSs (cx S L fuel n q this) b).bind result) { st with loc := loc } = .ok v st' := by
    rw [bind_ok hx, hr]; rfl
  unfold cx at this
  rw [this]

/-! ### names -/

variable {n : Nat} {this : Option (List Str)} {st : St}

theorem name_local {q : List Str} {x : Str} {l : CType × Val} (h : getLocal st x = some l) :
    evalE (cx S L fuel n q this) (.name [x]) st = .ok l.2 st := by
  rw [evalE]; unfold Ctx.name; simp only [h]

theorem nm_local {q : List Str} {x : Str} {l : CType × Val} (h : getLocal st x = some l) :
    evalE (cx S L fuel n q this) (nm x) st = .ok l.2 st := name_local h

theorem name_field {q : List Str} {p : List Str} {x : Str} {v : Val} (hl : getLocal st x = none)
    (hx : (S.prog.fields q.dropLast).any (fun f => f.2.1 = x) = true) (hm : st.mem (p ++ [x]) = some v) :
    evalE (cx S L fuel n q (some p)) (.name [x]) st = .ok v st := by
  rw [evalE]
  unfold Ctx.name Ctx.fieldOf Ctx.scope
  simp only [hl, cx, hx, hm, if_true]
  rfl

theorem name_global {q q' : List Str} {v : Val} (h : (cx S L fuel n q this).global q' = some v) (hq : q'.length ≠ 1) :
    evalE (cx S L fuel n q this) (.name q') st = .ok v st := by
  rw [evalE]
  unfold Ctx.name
  match q', hq with
  | [], _ => simp only [h]; rfl
  | [x], hq => exact absurd rfl hq
  | x :: y :: l, _ => simp only [h]; rfl

theorem assign_field {q : List Str} {p : List Str} {x : Str} {v : Val} {e : Expr} {st' : St} (he : evalE (cx S L fuel n q (some p)) e st = .ok v st')
    (hl : getLocal st' x = none) (hx : (S.prog.fields q.dropLast).any (fun f => f.2.1 = x) = true) :
    evalE (cx S L fuel n q (some p)) (.assign (nm x) e) st = .ok v { st' with mem := upd st'.mem (p ++ [x]) v } := by
  rw [evalE, bind_eq, bind_ok he]
  have : Ctx.assign (cx S L fuel n q (some p)) [x] v st' = .ok () { st' with mem := upd st'.mem (p ++ [x]) v } := by
    unfold Ctx.assign Ctx.fieldOf Ctx.scope
    simp only [hl, cx, hx, if_true, setMem]
    rfl
  show ((Ctx.assign (cx S L fuel n q (some p)) [x] v) >>= _) st' = _
  rw [bind_eq, bind_ok this]
  rfl

theorem assign_local {q : List Str} {x : Str} {v : Val} {e : Expr} {st' : St} {l : CType × Val} (he : evalE (cx S L fuel n q this) e st = .ok v st')
    (hl : getLocal st' x = some l) :
    evalE (cx S L fuel n q this) (.assign (nm x) e) st = .ok v { st' with loc := setIn x v st'.loc } := by
  rw [evalE, bind_eq, bind_ok he]
  have hh : Ctx.assign (cx S L fuel n q this) [x] v st' = .ok () { st' with loc := setIn x v st'.loc } := by
    unfold Ctx.assign
    simp only [hl, setLocal]
  show ((Ctx.assign (cx S L fuel n q this) [x] v) >>= _) st' = _
  rw [bind_eq, bind_ok hh]
  rfl

theorem eval_eq {C : Ctx} {a b : Expr} {x y : Val} {r : Bool} {st st1 st2 : St} (ha : evalE C a st = .ok x st1) (hb : evalE C b st1 = .ok y st2)
    (h : veq x y = some r) : evalE C (.eq c!"==" a b) st = .ok (.bool r) st2 := by
  rw [evalE, bind_eq, bind_ok ha, bind_eq, bind_ok hb]
  simp only [h, if_true]
  rfl

theorem eval_ne {C : Ctx} {a b : Expr} {x y : Val} {r : Bool} {st st1 st2 : St} (ha : evalE C a st = .ok x st1) (hb : evalE C b st1 = .ok y st2)
    (h : veq x y = some r) : evalE C (.eq c!"!=" a b) st = .ok (.bool (!r)) st2 := by
  rw [evalE, bind_eq, bind_ok ha, bind_eq, bind_ok hb]
  simp only [h]
  rfl

theorem eval_not {C : Ctx} {a : Expr} {r : Bool} {st st1 : St} (ha : evalE C a st = .ok (.bool r) st1) :
    evalE C (.un c!"!" a) st = .ok (.bool (!r)) st1 := by
  rw [evalE, if_pos rfl, bind_ok ha]
  rfl

/-! ### calls -/

theorem eval_dot {C : Ctx} {e : Expr} {f : Str} {s : Suf} : evalE C (.post e (.dot f s)) = M.bind (evalE C e) (fun v => evalS C v (.dot f s)) := by
  rw [evalE]
  · rfl
  · intro _ _ _ _ h; cases h

theorem eval_named {C : Ctx} {q : List Str} {a : Args} {s : Suf} (hm : isLogMacro q = false) :
    evalE C (.post (.name q) (.call a s)) = M.bind (evalA C a) (fun vs => M.bind (C.callName q vs) (fun v => evalS C v s)) := by
  have h := evalE.eq_5 C (.name q) q a s rfl
  rw [if_neg (by rw [hm]; simp)] at h
  exact h

theorem eval_macro {C : Ctx} {q : List Str} {a : Args} {s : Suf} (hm : isLogMacro q = true) :
    evalE C (.post (.name q) (.call a s)) = M.bind (evalLog C a) (fun vs => M.bind (emit (.out (.glob q :: vs))) (fun _ => M.ret .void)) := by
  have h := evalE.eq_5 C (.name q) q a s rfl
  rw [if_pos hm] at h
  exact h

/-- A call of a function of the program, by a name that resolves to it -/
theorem eval_call {q q' c : List Str} {es : List Expr} {vs : List Val} {v : Val} {st1 st2 : St} (hm : isLogMacro q' = false)
    (ha : evalList (cx S L fuel n q this) es st = .ok vs st1)
    (hc : (candidates q.dropLast q').find? (fun c => (S.prog.fn c).isSome) = some c)
    (hv : callFn S.prog L fuel n c (if c.dropLast = q.dropLast then this else none) vs st1 = .ok v st2) :
    evalE (cx S L fuel n q this) (Tree.call q' es) st = .ok v st2 := by
  unfold Tree.call
  rw [eval_named hm, evalA_argsOf, bind_ok ha]
  have : Ctx.callName (cx S L fuel n q this) q' vs st1 = .ok v st2 := by
    unfold Ctx.callName Ctx.scope
    simp only [cx, hc]
    exact hv
  rw [bind_ok this, evalS]
  rfl

/-- A call of a function of a library -/
theorem eval_lib {q q' : List Str} {es : List Expr} {vs : List Val} {st1 : St} (hm : isLogMacro q' = false)
    (ha : evalList (cx S L fuel n q this) es st = .ok vs st1)
    (hc : (candidates q.dropLast q').find? (fun c => (S.prog.fn c).isSome) = none) (hs : q' ≠ [c!"ros", c!"spin"]) (hk : L.takes q' vs.length = true) :
    evalE (cx S L fuel n q this) (Tree.call q' es) st = .ok (L.val q' vs) { st1 with eff := st1.eff ++ [.call q' vs] } := by
  unfold Tree.call
  rw [eval_named hm, evalA_argsOf, bind_ok ha]
  have : Ctx.callName (cx S L fuel n q this) q' vs st1 = .ok (L.val q' vs) { st1 with eff := st1.eff ++ [.call q' vs] } := by
    have e : Ctx.callName (cx S L fuel n q this) q' vs = Ctx.external (cx S L fuel n q this) q' vs := by
      unfold Ctx.callName Ctx.scope
      simp only [cx, hc]
      exact if_neg hs
    rw [e]
    unfold Ctx.external
    simp only [cx, hk, if_true]
  rw [bind_ok this, evalS]
  rfl

/-- A call of a method of an object -/
theorem eval_method {q p cls : List Str} {x f : Str} {es : List Expr} {vs : List Val} {v : Val} {st1 st2 st3 : St}
    (hx : evalE (cx S L fuel n q this) (.name [x]) st = .ok (.obj p cls) st1) (ha : evalList (cx S L fuel n q this) es st1 = .ok vs st2)
    (hf : (S.prog.fn (cls ++ [f])).isSome = true) (hv : callFn S.prog L fuel n (cls ++ [f]) (some p) vs st2 = .ok v st3) :
    evalE (cx S L fuel n q this) (mcall x f es) st = .ok v st3 := by
  unfold mcall
  rw [eval_dot, bind_ok hx, evalS]
  simp only [bind_eq, evalA_argsOf]
  rw [bind_ok ha]
  have : Ctx.callMethod (cx S L fuel n q this) (.obj p cls) f [] vs st2 = .ok v st3 := by
    unfold Ctx.callMethod
    show (if (S.prog.fn (cls ++ [f])).isSome = true then _ else _ : M Val) st2 = _
    rw [if_pos hf]
    exact hv
  rw [bind_ok this, evalS]
  rfl

/-- A call of a method of a library object -/
theorem eval_libMethod {q : List Str} {h : Nat} {x f : Str} {es : List Expr} {vs : List Val} {st1 st2 : St}
    (hx : evalE (cx S L fuel n q this) (.name [x]) st = .ok (.lib h) st1) (ha : evalList (cx S L fuel n q this) es st1 = .ok vs st2)
    (hk : L.takes [c!"." ++ f] (vs.length + 1) = true) :
    evalE (cx S L fuel n q this) (mcall x f es) st = .ok (L.val [c!"." ++ f] (.lib h :: vs)) { st2 with eff := st2.eff ++ [.call [c!"." ++ f] (.lib h :: vs)] } := by
  unfold mcall
  rw [eval_dot, bind_ok hx, evalS]
  simp only [bind_eq, evalA_argsOf]
  rw [bind_ok ha]
  have : Ctx.callMethod (cx S L fuel n q this) (.lib h) f [] vs st2 =
      .ok (L.val [c!"." ++ f] (.lib h :: vs)) { st2 with eff := st2.eff ++ [.call [c!"." ++ f] (.lib h :: vs)] } := by
    unfold Ctx.callMethod Ctx.external
    simp only [cx, List.length_cons, hk, if_true]
  rw [bind_ok this, evalS]
  rfl

/-! ### switches -/

theorem execFrom_skip {C : Ctx} {sel : Stmt → Bool} {s : Stmt} {ss : Stmts} (h : sel s = false) :
    execFrom C sel false (.cons s ss) = execFrom C sel false ss := by
  rw [execFrom, if_neg (by simp), h]

theorem execFrom_hit {C : Ctx} {sel : Stmt → Bool} {s : Stmt} {ss : Stmts} (h : sel s = true) :
    execFrom C sel false (.cons s ss) = execFrom C sel true ss := by
  rw [execFrom, if_neg (by simp), h]

theorem execFrom_on {C : Ctx} {sel : Stmt → Bool} {ss : Stmts} : execFrom C sel true ss = execSs C ss := by
  match ss with
  | .nil => rw [execFrom, execSs]
  | .cons s ss =>
    rw [execFrom, if_pos rfl, execSs]
    funext st
    simp only [bind_eq]
    unfold M.bind
    cases execS C s st with
    | wait => rfl
    | wrong => rfl
    | ok f st1 =>
      cases f with
      | next => simp only; rw [execFrom_on]
      | brk => rfl
      | ret v => rfl
termination_by sizeOf ss

theorem execFrom_app_skip {C : Ctx} {sel : Stmt → Bool} {a b : List Stmt} (h : ∀ s ∈ a, sel s = false) :
    execFrom C sel false (stmtsOf (a ++ b)) = execFrom C sel false (stmtsOf b) := by
  induction a with
  | nil => rfl
  | cons s a ih =>
    show execFrom C sel false (.cons s (stmtsOf (a ++ b))) = _
    rw [execFrom_skip (h s (List.mem_cons_self ..)), ih (fun s hs => h s (List.mem_cons_of_mem _ hs))]

theorem hasCase_iff {C : Ctx} {v : Val} (a : List Stmt) : C.hasCase v (stmtsOf a) = a.any (C.isCase v) := by
  induction a with
  | nil => rfl
  | cons s a ih => rw [stmtsOf, Ctx.hasCase, ih, List.any_cons]

/-- A switch that ends by `break` or at its end -/
theorem execS_switch {C : Ctx} {e : Expr} {b : Stmts} {v : Val} {st st1 st2 : St} {f : Flow} (he : evalE C e st = .ok v st1)
    (hb : execFrom C (if C.hasCase v b then C.isCase v else isDefault) false b st1 = .ok f st2) (hl : st2.loc = st1.loc) :
    execS C (.switch e b) st = .ok (if f = .brk then .next else f) st2 := by
  rw [execS, bind_eq, bind_ok he, bind_eq, bind_ok (inScope_same hb hl)]
  cases f <;> rfl

/-! ### enumerators -/

theorem isEnum_last (a b c : Str) : S.prog.isEnum [a, b, c] =
    ((decide (a = c!"rtcg" ∧ b = c!"Outcome") && outcomeNames.contains c) || (decide (a = c!"rtcg" ∧ b = c!"Status") && statusNames.contains c)) := by
  rw [Src.isEnum_prog]
  simp

theorem isEnum_two (a b : Str) : S.prog.isEnum [a, b] = (decide (a = c!"State") && (S.m.states.map (fun s => enumField S.U s.id)).contains b) := by
  rw [Src.isEnum_prog]
  simp

theorem isEnum_four (a b c d : Str) (l : List Str) : S.prog.isEnum (a :: b :: c :: d :: l) = false := by
  rw [Src.isEnum_prog]
  have : (a :: b :: c :: d :: l).dropLast ≠ [c!"rtcg", c!"Outcome"] ∧ (a :: b :: c :: d :: l).dropLast ≠ [c!"rtcg", c!"Status"] ∧
      (a :: b :: c :: d :: l).dropLast ≠ [c!"State"] := by
    simp
  simp [this]

end

end Sem

end Cpp

end Spec

end Rtcg
