import Verif.Proofs.CppSem
import Verif.Spec.CppConvert

/-
A program with functions that return their argument does what the program without them does with a library that has such functions, but for
the record of calls.
-/

namespace Rtcg

namespace Spec

namespace Cpp

namespace Conv

open Sem

/-- The program has functions that return their argument, and all that another program has -/
structure Adds (D : Str → Bool) (P P' : Prog) : Prop where
  conv : ∀ g, D g = true → ∃ t x, P'.fn [g] = some ([(t, x)], .cons (.retVal (.name [x])) .nil)
  fresh : ∀ g, D g = true → P.fn [g] = none
  fn : ∀ q, among D q = false → P'.fn q = P.fn q
  isEnum : ∀ q, P'.isEnum q = P.isEnum q
  cls : ∀ q, P'.cls q = P.cls q
  ownFields : ∀ q, P'.ownFields q = P.ownFields q
  var : ∀ q, P'.var q = P.var q
  unnamed : P.cls [] = none
  head : ∀ g, D g = true → g.head? = some 't' ∨ g.head? = some 'f'

section

variable {D : Str → Bool} {P P' : Prog} {L : Lib} {α β : Type}

def Sim (D : Str → Bool) (r r' : Res α) : Prop :=
  match r with
  | .ok a st => r' = .ok a (st.without D)
  | .wait st => r' = .wait (st.without D)
  | .wrong => True

def MSim (D : Str → Bool) (m m' : M α) : Prop := ∀ st : St, Sim D (m st) (m' (st.without D))

theorem sim_ret (a : α) : MSim D (M.ret a) (M.ret a) := fun _ => rfl

theorem sim_fail {m' : M α} : MSim D M.fail m' := fun _ => trivial

theorem sim_ofOption (o : Option α) : MSim D (M.ofOption o) (M.ofOption o) := by
  cases o with
  | none => exact sim_fail
  | some a => exact sim_ret a

theorem sim_bind {m m' : M α} {f f' : α → M β} (h : MSim D m m') (hf : ∀ a, MSim D (f a) (f' a)) : MSim D (m.bind f) (m'.bind f') := by
  intro st
  have h1 := h st
  unfold M.bind
  cases hm : m st with
  | ok a st1 =>
    rw [hm] at h1
    simp only [Sim] at h1
    rw [h1]
    exact hf a st1
  | wait st1 =>
    rw [hm] at h1
    simp only [Sim] at h1
    rw [h1]
    rfl
  | wrong => trivial

theorem sim_emit {e : Effect} (h : notCall D e = true) : MSim D (emit e) (emit e) := by
  intro st
  show Res.ok _ _ = Res.ok _ _
  congr 1
  unfold St.without
  simp [List.filter_append, h]

theorem sim_setMem (p : List Str) (v : Val) : MSim D (setMem p v) (setMem p v) := fun _ => rfl

theorem sim_addLocal (x : Str) (t : CType) (v : Val) : MSim D (addLocal x t v) (addLocal x t v) := fun _ => rfl

theorem sim_setLocal (x : Str) (v : Val) : MSim D (setLocal x v) (setLocal x v) := fun _ => rfl

theorem sim_inScope {m m' : M α} (h : MSim D m m') : MSim D (inScope m) (inScope m') := by
  intro st
  have h1 := h st
  unfold inScope
  cases hm : m st with
  | ok a st1 =>
    rw [hm] at h1
    simp only [Sim] at h1
    rw [h1]
    rfl
  | wait st1 =>
    rw [hm] at h1
    simp only [Sim] at h1
    rw [h1]
    rfl
  | wrong => trivial

theorem sim_framed {m m' : M α} (loc : List (Str × CType × Val)) (h : MSim D m m') : MSim D (framed loc m) (framed loc m') := by
  intro st
  have h1 := h { st with loc := loc }
  unfold framed
  cases hm : m { st with loc := loc } with
  | ok a st1 =>
    rw [hm] at h1
    simp only [Sim] at h1
    rw [show m' { st.without D with loc := loc } = .ok a (st1.without D) from h1]
    rfl
  | wait st1 =>
    rw [hm] at h1
    simp only [Sim] at h1
    rw [show m' { st.without D with loc := loc } = .wait (st1.without D) from h1]
    rfl
  | wrong => trivial

theorem sim_ite {c : Prop} [Decidable c] {a a' b b' : M α} (h1 : MSim D a a') (h2 : MSim D b b') :
    MSim D (if c then a else b) (if c then a' else b') := by
  by_cases h : c
  · rw [if_pos h, if_pos h]; exact h1
  · rw [if_neg h, if_neg h]; exact h2

theorem sim_else {c : Prop} [Decidable c] {a b b' : M α} (h : ¬ c) (hb : MSim D b b') : MSim D (if c then a else b) b' := by
  rw [if_neg h]; exact hb

/-! ### contexts -/

/-- The same place in the two programs -/
structure CtxSim (D : Str → Bool) (P P' : Prog) (L : Lib) (C C' : Ctx) : Prop where
  prog : C.prog = P
  prog' : C'.prog = P'
  lib : C.lib = L.returning D
  lib' : C'.lib = L
  self : C'.self = C.self
  this : C'.this = C.this
  fuel : C'.fuel = C.fuel
  call : ∀ q t args, MSim D (C.call q t args) (C'.call q t args)
  make : ∀ c p args, MSim D (C.make c p args) (C'.make c p args)
  conv : ∀ g, D g = true → ∀ t v, C'.call [g] t [v] = M.ret v

variable {C C' : Ctx}

theorem fields_eq (h : Adds D P P') (q : List Str) : P'.fields q = P.fields q := by
  unfold Prog.fields
  rw [h.cls, h.ownFields]
  cases P.cls q with
  | none => rfl
  | some o => cases o <;> simp [h.ownFields]

theorem scope_eq (hC : CtxSim D P P' L C C') : C'.scope = C.scope := by
  unfold Ctx.scope; rw [hC.self]

theorem fieldOf_eq (h : Adds D P P') (hC : CtxSim D P P' L C C') (x : Str) : C'.fieldOf x = C.fieldOf x := by
  unfold Ctx.fieldOf
  rw [hC.this, scope_eq hC, hC.prog, hC.prog', fields_eq h]

theorem global_eq (h : Adds D P P') (hC : CtxSim D P P' L C C') (q : List Str) : C'.global q = C.global q := by
  unfold Ctx.global
  rw [scope_eq hC, hC.prog, hC.prog', hC.lib, hC.lib']
  simp only [h.isEnum, h.var]
  rfl

theorem sim_name (h : Adds D P P') (hC : CtxSim D P P' L C C') (q : List Str) : MSim D (C.name q) (C'.name q) := by
  intro st
  have ho : ∀ o : Option Val, Sim D (M.ofOption o st) (M.ofOption o (st.without D)) := fun o => sim_ofOption o st
  unfold Ctx.name
  rw [global_eq h hC]
  match q with
  | [] => exact ho _
  | [x] =>
    simp only [fieldOf_eq h hC]
    rw [show getLocal (st.without D) x = getLocal st x from rfl]
    cases getLocal st x with
    | some l => rfl
    | none =>
      cases C.fieldOf x with
      | some a => exact ho _
      | none => exact ho _
  | x :: y :: l => exact ho _

theorem sim_assign (h : Adds D P P') (hC : CtxSim D P P' L C C') (q : List Str) (v : Val) : MSim D (C.assign q v) (C'.assign q v) := by
  intro st
  unfold Ctx.assign
  match q with
  | [] => trivial
  | [x] =>
    simp only [fieldOf_eq h hC]
    rw [show getLocal (st.without D) x = getLocal st x from rfl]
    cases getLocal st x with
    | some l => exact sim_setLocal x v st
    | none =>
      cases C.fieldOf x with
      | some a => exact sim_setMem a v st
      | none => trivial
  | x :: y :: l => trivial

theorem sim_address (h : Adds D P P') (hC : CtxSim D P P' L C C') (q : List Str) : MSim D (C.address q) (C'.address q) := by
  intro st
  unfold Ctx.address
  have key : ∀ q', among D q' = false → Sim D (if (C.prog.fn q').isSome then .ok (.addr q') st else .wrong)
      (if (C'.prog.fn q').isSome then Res.ok (Val.addr q') (st.without D) else .wrong) := by
    intro q' hq
    rw [hC.prog, hC.prog', h.fn q' hq]
    by_cases hs : (P.fn q').isSome = true
    · rw [if_pos hs, if_pos hs]; rfl
    · rw [if_neg hs]; trivial
  match q with
  | [] => exact key [] rfl
  | [x] =>
    simp only
    rw [show getLocal (st.without D) x = getLocal st x from rfl]
    cases getLocal st x with
    | none => trivial
    | some l =>
      obtain ⟨t, v⟩ := l
      cases v <;> first | trivial | rfl
  | x :: y :: l => exact key _ rfl

theorem sim_external (hC : CtxSim D P P' L C C') {q : List Str} (hq : among D q = false) (args : List Val) :
    MSim D (C.external q args) (C'.external q args) := by
  intro st
  unfold Ctx.external
  rw [hC.lib, hC.lib']
  unfold Lib.returning
  simp only [hq]
  by_cases ht : L.takes q args.length = true
  · simp only [ht, if_true, Bool.false_eq_true, if_false]
    show Res.ok _ _ = Res.ok _ _
    unfold St.without
    simp [List.filter_append, notCall, hq]
  · simp only [ht, if_false, Bool.false_eq_true]
    trivial

theorem isDown_eq (st : St) : isDown (st.without D) = isDown st := by
  unfold isDown St.without
  simp only [List.any_filter]
  congr 1
  funext e
  cases e with
  | out vs => rfl
  | call q args =>
    by_cases hq : q = [c!"ros", c!"shutdown"]
    · subst hq; rfl
    · simp [isShutdown, hq]

theorem registered_eq (h : Adds D P P') (e : Event) (st : St) : registered e (st.without D) = registered e st := by
  unfold registered St.without
  simp only [List.any_filter]
  congr 1
  funext x
  cases x with
  | out vs => rfl
  | call q args =>
    by_cases hq : among D q = true
    · have hn : q ≠ [c!".subscribe"] ∧ q ≠ [c!".createTimer"] := by
        constructor <;> rintro rfl
        · rcases h.head _ hq with h | h <;> exact absurd h (by decide)
        · rcases h.head _ hq with h | h <;> exact absurd h (by decide)
      simp [notCall, hn.1, hn.2]
    · simp [notCall, hq]

theorem sim_spin (h : Adds D P P') (hC : CtxSim D P P' L C C') (es : List Event) : MSim D (C.spin es) (C'.spin es) := by
  induction es with
  | nil =>
    intro st
    unfold Ctx.spin
    rw [isDown_eq]
    by_cases hd : isDown st = true
    · rw [if_pos hd, if_pos hd]; rfl
    · rw [if_neg hd, if_neg hd]; rfl
  | cons e es ih =>
    intro st
    unfold Ctx.spin
    rw [isDown_eq, registered_eq h]
    by_cases hd : isDown st = true
    · rw [if_pos hd, if_pos hd]; rfl
    · rw [if_neg hd, if_neg hd]
      by_cases hr : registered e st = true
      · rw [if_pos hr, if_pos hr]
        exact sim_bind (hC.call _ _ _) (fun _ => ih) { st with events := es }
      · rw [if_neg hr]; trivial

/-! ### calls -/

theorem candidates_last (scope : List Str) (x : Str) (q : List Str) :
    ∃ init, candidates scope (x :: q) = init ++ [x :: q] ∧ ∀ c ∈ init, ∃ a b l, c = a :: b :: l := by
  refine ⟨((List.range scope.length).map (· + 1)).reverse.map (fun n => scope.take n ++ (x :: q)), ?_, ?_⟩
  · show List.map _ ((List.range (scope.length + 1)).reverse) = _
    rw [List.range_succ_eq_map, List.reverse_cons, List.map_append]
    rfl
  · intro c hc
    obtain ⟨n, hn, rfl⟩ := List.mem_map.1 hc
    rw [List.mem_reverse, List.mem_map] at hn
    obtain ⟨k, hk, rfl⟩ := hn
    rw [List.mem_range] at hk
    cases scope with
    | nil => simp at hk
    | cons a s =>
      cases s with
      | nil => exact ⟨a, x, q, by simp⟩
      | cons b s =>
        cases k with
        | zero => exact ⟨a, x, q, by simp⟩
        | succ k => exact ⟨a, b, _, by simp only [List.take_succ_cons, List.cons_append]; rfl⟩

theorem find_congr {α : Type} {p p' : α → Bool} {l : List α} (h : ∀ a ∈ l, p a = p' a) : l.find? p = l.find? p' := by
  induction l with
  | nil => rfl
  | cons a l ih =>
    rw [List.find?_cons, List.find?_cons, h a (List.mem_cons_self ..), ih (fun b hb => h b (List.mem_cons_of_mem _ hb))]

theorem sim_callName (h : Adds D P P') (hC : CtxSim D P P' L C C') (q : List Str) (args : List Val) :
    MSim D (C.callName q args) (C'.callName q args) := by
  cases q with
  | nil =>
    unfold Ctx.callName
    simp only [candidates, List.find?_nil]
    exact sim_ite (fun st => sim_spin h hC st.events st) (sim_external hC rfl args)
  | cons x q =>
    obtain ⟨init, hi, hlong⟩ := candidates_last C.scope x q
    have hinit : init.find? (fun c => (C'.prog.fn c).isSome) = init.find? (fun c => (C.prog.fn c).isSome) := by
      apply find_congr
      intro c hc
      obtain ⟨a, b, l, rfl⟩ := hlong c hc
      rw [hC.prog, hC.prog', h.fn _ rfl]
    unfold Ctx.callName
    rw [scope_eq hC, hi, List.find?_append, List.find?_append, hinit]
    cases hf : init.find? (fun c => (C.prog.fn c).isSome) with
    | some c =>
      simp only [Option.some_or, hC.this]
      exact hC.call _ _ _
    | none =>
      simp only [Option.none_or, List.find?_cons, List.find?_nil]
      by_cases hq : among D (x :: q) = true
      · have hx : q = [] ∧ D x = true := by
          cases q with
          | nil => exact ⟨rfl, hq⟩
          | cons y q => cases hq
        obtain ⟨rfl, hx⟩ := hx
        rw [hC.prog, hC.prog', h.fresh x hx]
        obtain ⟨t, y, hc⟩ := h.conv x hx
        rw [hc]
        have hns : ([x] : List Str) ≠ [c!"ros", c!"spin"] := by simp
        refine sim_else hns ?_
        show MSim D (C.external [x] args) (C'.call [x] _ args)
        intro st
        unfold Ctx.external
        rw [hC.lib]
        unfold Lib.returning
        have ha : among D [x] = true := hx
        simp only [ha, if_true]
        by_cases hl : args.length = 1
        · obtain ⟨v, rfl⟩ := List.length_eq_one_iff.1 hl
          rw [hC.conv x hx]
          simp only [List.length_singleton, decide_true, if_true]
          show M.ret v _ = Res.ok _ _
          unfold M.ret St.without
          simp [List.filter_append, notCall, ha]
        · simp only [hl, decide_false, Bool.false_eq_true, if_false]
          trivial
      · have hq' : among D (x :: q) = false := by simpa using hq
        rw [hC.prog, hC.prog', h.fn _ hq']
        cases (P.fn (x :: q)).isSome with
        | true =>
          simp only [hC.this]
          exact hC.call _ _ _
        | false => exact sim_ite (fun st => sim_spin h hC st.events st) (sim_external hC hq' args)

theorem among_two (cls : List Str) (f : Str) (h : cls ≠ []) : among D (cls ++ [f]) = false := by
  match cls with
  | [] => exact absurd rfl h
  | [a] => rfl
  | a :: b :: l => rfl

theorem sim_callMethod (h : Adds D P P') (hC : CtxSim D P P' L C C') (v : Val) (f : Str) (ts : List Str)
    (args : List Val) : MSim D (C.callMethod v f ts args) (C'.callMethod v f ts args) := by
  unfold Ctx.callMethod
  cases v with
  | obj p cls =>
    simp only [hC.prog, hC.prog', h.cls]
    by_cases hn : cls = []
    · subst hn
      rw [h.unnamed]
      by_cases ha : among D [f] = true
      · rw [show ([] : List Str) ++ [f] = [f] from rfl, h.fresh f ha]
        exact sim_fail
      · rw [show ([] : List Str) ++ [f] = [f] from rfl, h.fn [f] (by simpa using ha)]
        exact sim_ite (hC.call _ _ _) sim_fail
    · rw [h.fn _ (among_two cls f hn)]
      refine sim_ite (hC.call _ _ _) ?_
      cases hb : P.cls cls with
      | none => exact sim_fail
      | some o =>
        cases o with
        | none => exact sim_fail
        | some b =>
          simp only
          by_cases hn' : b = []
          · subst hn'
            by_cases ha : among D [f] = true
            · rw [show ([] : List Str) ++ [f] = [f] from rfl, h.fresh f ha]
              exact sim_fail
            · rw [show ([] : List Str) ++ [f] = [f] from rfl, h.fn [f] (by simpa using ha)]
              exact sim_ite (hC.call _ _ _) sim_fail
          · rw [h.fn _ (among_two b f hn')]
            exact sim_ite (hC.call _ _ _) sim_fail
  | str s =>
    match args with
    | [] => exact sim_fail
    | [.str t] => exact sim_ite (sim_ret _) sim_fail
    | [.void] => exact sim_fail
    | [.bool _] => exact sim_fail
    | [.int _] => exact sim_fail
    | [.enum _] => exact sim_fail
    | [.obj _ _] => exact sim_fail
    | [.addr _] => exact sim_fail
    | [.glob _] => exact sim_fail
    | [.lib _] => exact sim_fail
    | a :: b :: l =>
      cases a <;> exact sim_fail
  | lib k =>
    refine sim_external hC ?_ _
    cases ts with
    | nil =>
      show D (c!"." ++ f) = false
      cases hd : D (c!"." ++ f) with
      | false => rfl
      | true =>
        rcases h.head _ hd with e | e <;> cases e
    | cons t ts => rfl
  | void => exact sim_fail
  | bool b => exact sim_fail
  | int i => exact sim_fail
  | enum q => exact sim_fail
  | addr p => exact sim_fail
  | glob q => exact sim_fail

theorem sim_readInto (x : Str) : MSim D (readInto x) (readInto x) := by
  intro st
  unfold readInto
  rw [show getLocal (st.without D) x = getLocal st x from rfl, show (st.without D).input = st.input from rfl]
  cases getLocal st x with
  | none => trivial
  | some l =>
    cases st.input with
    | nil => rfl
    | cons w ws =>
      simp only
      cases readAs l.1 w with
      | none => trivial
      | some v => rfl

theorem sim_readTail (t : Tail) : MSim D (readTail t) (readTail t) := by
  match t with
  | .nil => exact sim_ret _
  | .cons op e t =>
    unfold readTail
    have ih := sim_readTail t
    match nameOf e with
    | none => exact sim_fail
    | some [] => exact sim_fail
    | some [x] => exact sim_ite (sim_bind (sim_readInto x) fun _ => ih) sim_fail
    | some (x :: y :: l) => exact sim_fail

theorem sim_not (v : Val) : MSim D (not' v) (not' v) := by
  cases v <;> first | exact sim_fail | exact sim_ret _

theorem sim_neg (v : Val) : MSim D (neg v) (neg v) := by
  cases v <;> first | exact sim_fail | exact sim_ret _

theorem sim_truth (v : Val) : MSim D (truth v) (truth v) := by
  cases v <;> first | exact sim_fail | exact sim_ret _

/-! ### expressions -/

mutual

theorem sim_evalE (h : Adds D P P') (hC : CtxSim D P P' L C C') : (e : Expr) → MSim D (evalE C e) (evalE C' e)
  | .name q => by rw [evalE, evalE]; exact sim_name h hC q
  | .str s => by rw [evalE, evalE]; exact sim_ret _
  | .num w => by rw [evalE, evalE]; exact sim_ofOption _
  | .bool b => by rw [evalE, evalE]; exact sim_ret _
  | .post e s => by
    have he := sim_evalE h hC e
    have hother : ∀ s : Suf, (∀ q a s', nameOf e = some q → s = .call a s' → False) → (∀ v, MSim D (evalS C v s) (evalS C' v s)) →
        MSim D (evalE C (.post e s)) (evalE C' (.post e s)) := by
      intro s hs hv
      have e1 : evalE C (.post e s) = M.bind (evalE C e) (fun v => evalS C v s) := by
        rw [evalE]
        · rfl
        · intro q a s' h1 h2; exact hs q a s' h1 h2
      have e2 : evalE C' (.post e s) = M.bind (evalE C' e) (fun v => evalS C' v s) := by
        rw [evalE]
        · rfl
        · intro q a s' h1 h2; exact hs q a s' h1 h2
      rw [e1, e2]
      exact sim_bind he hv
    have hs := fun v => sim_evalS h hC v s
    cases s with
    | call a s' =>
      cases hn : nameOf e with
      | none => exact hother _ (by intro q a s' h1; rw [hn] at h1; cases h1) hs
      | some q =>
        have e1 := evalE.eq_5 C e q a s' hn
        have e2 := evalE.eq_5 C' e q a s' hn
        rw [e1, e2]
        have ha := sim_evalA h hC a
        have hl := sim_evalLog h hC a
        have hs' := fun v => sim_evalS h hC v s'
        exact sim_ite (sim_bind hl fun vs => sim_bind (sim_emit rfl) fun _ => sim_ret _)
          (sim_bind ha fun vs => sim_bind (sim_callName h hC q vs) hs')
    | nil => exact hother _ (by intro q a s' _ h1; cases h1) hs
    | dot f s' => exact hother _ (by intro q a s' _ h1; cases h1) hs
    | arrow f s' => exact hother _ (by intro q a s' _ h1; cases h1) hs
    | inst f s' => exact hother _ (by intro q a s' _ h1; cases h1) hs
  | .un op e => by
    have he := sim_evalE h hC e
    rw [evalE, evalE]
    refine sim_ite (sim_bind he sim_not) (sim_ite (sim_bind he sim_neg) ?_)
    cases nameOf e with
    | none => exact sim_fail
    | some q => exact sim_address h hC q
  | .shift e t => by
    have he := sim_evalE h hC e
    have ht := sim_evalT h hC t
    rw [evalE, evalE]
    exact sim_ite (sim_bind (sim_readTail t) fun _ => sim_ret _)
      (sim_bind he fun v => sim_bind ht fun vs => sim_bind (sim_emit rfl) fun _ => sim_ret _)
  | .eq op a b => by
    have ha := sim_evalE h hC a
    have hb := sim_evalE h hC b
    rw [evalE, evalE]
    refine sim_bind ha fun x => sim_bind hb fun y => ?_
    cases veq x y with
    | none => exact sim_fail
    | some r => exact sim_ret _
  | .and a b => by
    have ha := sim_evalE h hC a
    have hb := sim_evalE h hC b
    rw [evalE, evalE]
    exact sim_bind ha fun x => sim_bind (sim_truth x) fun r =>
      sim_ite (sim_bind hb fun y => sim_bind (sim_truth y) fun r => sim_ret _) (sim_ret _)
  | .assign a b => by
    have hb := sim_evalE h hC b
    rw [evalE, evalE]
    refine sim_bind hb fun v => ?_
    cases nameOf a with
    | none => exact sim_fail
    | some q => exact sim_bind (sim_assign h hC q v) fun _ => sim_ret _

theorem sim_evalS (h : Adds D P P') (hC : CtxSim D P P' L C C') (v : Val) : (s : Suf) → MSim D (evalS C v s) (evalS C' v s)
  | .nil => by rw [evalS, evalS]; exact sim_ret _
  | .dot f (.call a s) => by
    have ha := sim_evalA h hC a
    have hs := fun v => sim_evalS h hC v s
    rw [evalS, evalS]
    exact sim_bind ha fun vs => sim_bind (sim_callMethod h hC v f [] vs) hs
  | .dot f (.inst t (.call a s)) => by
    have ha := sim_evalA h hC a
    have hs := fun v => sim_evalS h hC v s
    rw [evalS, evalS]
    exact sim_bind ha fun vs => sim_bind (sim_callMethod h hC v f t.name vs) hs
  | .dot f .nil => by simp only [evalS]; exact sim_fail
  | .dot f (.dot _ _) => by simp only [evalS]; exact sim_fail
  | .dot f (.arrow _ _) => by simp only [evalS]; exact sim_fail
  | .dot f (.inst t .nil) => by simp only [evalS]; exact sim_fail
  | .dot f (.inst t (.dot _ _)) => by simp only [evalS]; exact sim_fail
  | .dot f (.inst t (.arrow _ _)) => by simp only [evalS]; exact sim_fail
  | .dot f (.inst t (.inst _ _)) => by simp only [evalS]; exact sim_fail
  | .arrow _ _ => by simp only [evalS]; exact sim_fail
  | .inst _ _ => by simp only [evalS]; exact sim_fail
  | .call _ _ => by simp only [evalS]; exact sim_fail

theorem sim_evalA (h : Adds D P P') (hC : CtxSim D P P' L C C') : (a : Args) → MSim D (evalA C a) (evalA C' a)
  | .nil => by rw [evalA, evalA]; exact sim_ret _
  | .cons e a => by
    have he := sim_evalE h hC e
    have ha := sim_evalA h hC a
    rw [evalA, evalA]
    exact sim_bind he fun v => sim_bind ha fun vs => sim_ret _

theorem sim_evalT (h : Adds D P P') (hC : CtxSim D P P' L C C') : (t : Tail) → MSim D (evalT C t) (evalT C' t)
  | .nil => by rw [evalT, evalT]; exact sim_ret _
  | .cons op e t => by
    have he := sim_evalE h hC e
    have ht := sim_evalT h hC t
    rw [evalT, evalT]
    exact sim_ite (sim_bind he fun v => sim_bind ht fun vs => sim_ret _) sim_fail

theorem sim_evalLog (h : Adds D P P') (hC : CtxSim D P P' L C C') : (a : Args) → MSim D (evalLog C a) (evalLog C' a)
  | .cons (.shift e t) .nil => by
    have he := sim_evalE h hC e
    have ht := sim_evalT h hC t
    rw [evalLog, evalLog]
    exact sim_bind he fun v => sim_bind ht fun vs => sim_ret _
  | .nil => by simp only [evalLog]; exact sim_fail
  | .cons (.shift e t) (.cons _ _) => by simp only [evalLog]; exact sim_fail
  | .cons (.name _) _ => by simp only [evalLog]; exact sim_fail
  | .cons (.str _) _ => by simp only [evalLog]; exact sim_fail
  | .cons (.num _) _ => by simp only [evalLog]; exact sim_fail
  | .cons (.bool _) _ => by simp only [evalLog]; exact sim_fail
  | .cons (.post _ _) _ => by simp only [evalLog]; exact sim_fail
  | .cons (.un _ _) _ => by simp only [evalLog]; exact sim_fail
  | .cons (.eq _ _ _) _ => by simp only [evalLog]; exact sim_fail
  | .cons (.and _ _) _ => by simp only [evalLog]; exact sim_fail
  | .cons (.assign _ _) _ => by simp only [evalLog]; exact sim_fail

end

/-! ### statements -/

theorem classOf_eq (h : Adds D P P') (hC : CtxSim D P P' L C C') (q : List Str) : C'.classOf q = C.classOf q := by
  unfold Ctx.classOf
  rw [scope_eq hC, hC.prog, hC.prog']
  simp only [h.cls]

theorem initial_eq (t : CType) : initial (L.returning D) t = initial L t := rfl

theorem sim_object (h : Adds D P P') (hC : CtxSim D P P' L C C') (t : CType) (x : Str) (args : List Val) :
    MSim D (C.object t x args) (C'.object t x args) := by
  unfold Ctx.object
  rw [classOf_eq h hC, hC.self]
  cases C.classOf t.name with
  | none => exact sim_fail
  | some c => exact sim_bind (hC.make _ _ _) fun _ => sim_addLocal _ _ _

theorem sim_declare (h : Adds D P P') (hC : CtxSim D P P' L C C') (t : CType) (x : Str) : MSim D (C.declare t x) (C'.declare t x) := by
  unfold Ctx.declare
  rw [classOf_eq h hC]
  cases C.classOf t.name with
  | some c => exact sim_object h hC t x []
  | none =>
    simp only [hC.lib, hC.lib', initial_eq]
    cases initial L t with
    | none => exact sim_fail
    | some v => exact sim_addLocal _ _ _

theorem isCase_eq (h : Adds D P P') (hC : CtxSim D P P' L C C') (v : Val) (s : Stmt) : C'.isCase v s = C.isCase v s := by
  unfold Ctx.isCase
  simp only [global_eq h hC]

theorem hasCase_eq (h : Adds D P P') (hC : CtxSim D P P' L C C') (v : Val) : (ss : Stmts) → C'.hasCase v ss = C.hasCase v ss
  | .nil => rfl
  | .cons s ss => by
    rw [Ctx.hasCase, Ctx.hasCase, isCase_eq h hC, hasCase_eq h hC v ss]

theorem sim_iterate {c c' : M Bool} {s s' : M Unit} {b b' : M Flow} (hc : MSim D c c') (hs : MSim D s s') (hb : MSim D b b') (n : Nat) :
    MSim D (iterate c s b n) (iterate c' s' b' n) := by
  induction n with
  | zero => exact sim_fail
  | succ n ih =>
    unfold iterate
    refine sim_bind hc fun r => sim_ite (sim_bind hb fun f => ?_) (sim_ret _)
    cases f with
    | ret v => exact sim_ret _
    | brk => exact sim_ret _
    | next => exact sim_bind hs fun _ => ih

mutual

theorem sim_execS (h : Adds D P P') (hC : CtxSim D P P' L C C') : (s : Stmt) → MSim D (execS C s) (execS C' s)
  | .skip => by rw [execS, execS]; exact sim_ret _
  | .expr e => by rw [execS, execS]; exact sim_bind (sim_evalE h hC e) fun _ => sim_ret _
  | .decl t x => by rw [execS, execS]; exact sim_bind (sim_declare h hC t x) fun _ => sim_ret _
  | .declEq t x e => by rw [execS, execS]; exact sim_bind (sim_evalE h hC e) fun v => sim_bind (sim_addLocal _ _ _) fun _ => sim_ret _
  | .declBraces t x a => by
    rw [execS, execS]
    exact sim_bind (sim_evalA h hC a) fun vs => sim_bind (sim_object h hC t x vs) fun _ => sim_ret _
  | .ret => by rw [execS, execS]; exact sim_ret _
  | .retVal e => by rw [execS, execS]; exact sim_bind (sim_evalE h hC e) fun _ => sim_ret _
  | .brk => by rw [execS, execS]; exact sim_ret _
  | .ite c a b => by
    have ha := sim_execS h hC a
    have hb := sim_execS h hC b
    rw [execS, execS]
    exact sim_bind (sim_evalE h hC c) fun v => sim_bind (sim_truth v) fun r => sim_ite (sim_inScope ha) (sim_inScope hb)
  | .switch e b => by
    have hb := fun sel on => sim_execFrom h hC sel on b
    rw [execS, execS]
    refine sim_bind (sim_evalE h hC e) fun v => ?_
    rw [show C'.isCase v = C.isCase v from funext (isCase_eq h hC v), hasCase_eq h hC]
    refine sim_bind (sim_inScope (hb _ _)) fun f => ?_
    cases f <;> exact sim_ret _
  | .case _ => by rw [execS, execS]; exact sim_ret _
  | .dflt => by rw [execS, execS]; exact sim_ret _
  | .block b => by
    have hb := sim_execSs h hC b
    rw [execS, execS]
    exact sim_inScope hb
  | .loop t x e c s b => by
    have hb := sim_execS h hC b
    rw [execS, execS, hC.fuel]
    exact sim_inScope (sim_bind (sim_evalE h hC e) fun v => sim_bind (sim_addLocal _ _ _) fun _ =>
      sim_iterate (sim_bind (sim_evalE h hC c) sim_truth) (sim_bind (sim_evalE h hC s) fun _ => sim_ret _) (sim_inScope hb) _)

theorem sim_execSs (h : Adds D P P') (hC : CtxSim D P P' L C C') : (ss : Stmts) → MSim D (execSs C ss) (execSs C' ss)
  | .nil => by rw [execSs, execSs]; exact sim_ret _
  | .cons s ss => by
    have hs := sim_execS h hC s
    have hss := sim_execSs h hC ss
    rw [execSs, execSs]
    refine sim_bind hs fun f => ?_
    cases f with
    | next => exact hss
    | brk => exact sim_ret _
    | ret v => exact sim_ret _

theorem sim_execFrom (h : Adds D P P') (hC : CtxSim D P P' L C C') (sel : Stmt → Bool) (on : Bool) :
    (ss : Stmts) → MSim D (execFrom C sel on ss) (execFrom C' sel on ss)
  | .nil => by rw [execFrom, execFrom]; exact sim_ret _
  | .cons s ss => by
    have hs := sim_execS h hC s
    have hss := fun on => sim_execFrom h hC sel on ss
    rw [execFrom, execFrom]
    refine sim_ite (sim_bind hs fun f => ?_) (hss _)
    cases f with
    | next => exact hss true
    | brk => exact sim_ret _
    | ret v => exact sim_ret _

end

/-! ### functions and objects -/

theorem sim_result (f : Flow) : MSim D (result f) (result f) := by
  cases f <;> first | exact sim_fail | exact sim_ret _

theorem sim_initField (h : Adds D P P') (hC : CtxSim D P P' L C C') (p : List Str) (f : CType × Str × Option Expr) :
    MSim D (initField C p f) (initField C' p f) := by
  unfold initField
  rw [classOf_eq h hC, hC.lib, hC.lib', initial_eq]
  cases f.2.2 with
  | some e => exact sim_bind (sim_evalE h hC e) fun v => sim_setMem _ _
  | none =>
    cases C.classOf f.1.name with
    | some c => exact sim_bind (hC.make _ _ _) fun _ => sim_setMem _ _
    | none =>
      cases initial L f.1 with
      | none => exact sim_fail
      | some v => exact sim_setMem _ _

theorem sim_initFields (h : Adds D P P') (hC : CtxSim D P P' L C C') (p : List Str) (fs : List (CType × Str × Option Expr)) :
    MSim D (initFields C p fs) (initFields C' p fs) := by
  induction fs with
  | nil => exact sim_ret _
  | cons f fs ih =>
    unfold initFields
    exact sim_bind (sim_initField h hC p f) fun _ => ih

theorem conv_run (h : Adds D P P') (fuel n : Nat) (g : Str) (hg : D g = true) (t : Option (List Str)) (v : Val) :
    callFn P' L fuel (n + 1) [g] t [v] = M.ret v := by
  obtain ⟨ty, x, hf⟩ := h.conv g hg
  funext st
  rw [callFn]
  simp only [hf, bindParams, Option.map_some]
  unfold framed
  have : execSs ⟨P', L, [g], t, fuel, callFn P' L fuel n, makeObj P' L fuel n⟩ (.cons (.retVal (.name [x])) .nil) { st with loc := [(x, ty, v)] } =
      .ok (.ret v) { st with loc := [(x, ty, v)] } := by
    apply execSs_stop
    · rw [execS, bind_eq]
      apply bind_ok (a := v) (st' := { st with loc := [(x, ty, v)] })
      rw [evalE]
      unfold Ctx.name getLocal
      simp
    · simp
  rw [bind_ok this]
  rfl

mutual

theorem sim_callFn (h : Adds D P P') (fuel : Nat) : (n : Nat) → (q : List Str) → (t : Option (List Str)) → (args : List Val) →
    MSim D (callFn P (L.returning D) fuel n q t args) (callFn P' L fuel (n + 1) q t args)
  | 0, _, _, _ => by rw [callFn]; exact sim_fail
  | n + 1, q, t, args => by
    have h1 := fun q t args => sim_callFn h fuel n q t args
    have h2 := fun c p args => sim_makeObj h fuel n c p args
    rw [callFn, callFn]
    by_cases hq : among D q = true
    · have : P.fn q = none := by
        match q, hq with
        | [g], hq => exact h.fresh g hq
      rw [this]
      exact sim_fail
    · rw [h.fn q (by simpa using hq)]
      cases P.fn q with
      | none => exact sim_fail
      | some d =>
        obtain ⟨ps, b⟩ := d
        simp only
        cases bindParams ps args with
        | none => exact sim_fail
        | some loc =>
          simp only
          have hC : CtxSim D P P' L ⟨P, L.returning D, q, t, fuel, callFn P (L.returning D) fuel n, makeObj P (L.returning D) fuel n⟩
            ⟨P', L, q, t, fuel, callFn P' L fuel (n + 1), makeObj P' L fuel (n + 1)⟩ :=
            ⟨rfl, rfl, rfl, rfl, rfl, rfl, rfl, h1, h2, conv_run h fuel n⟩
          exact sim_framed loc (sim_bind (sim_execSs h hC b) sim_result)

theorem sim_makeObj (h : Adds D P P') (fuel : Nat) : (n : Nat) → (c p : List Str) → (args : List Val) →
    MSim D (makeObj P (L.returning D) fuel n c p args) (makeObj P' L fuel (n + 1) c p args)
  | 0, _, _, _ => by rw [makeObj]; exact sim_fail
  | n + 1, c, p, args => by
    have h1 := fun q t args => sim_callFn h fuel n q t args
    have h2 := fun c p args => sim_makeObj h fuel n c p args
    have hC : ∀ q t, CtxSim D P P' L ⟨P, L.returning D, q, t, fuel, callFn P (L.returning D) fuel n, makeObj P (L.returning D) fuel n⟩
      ⟨P', L, q, t, fuel, callFn P' L fuel (n + 1), makeObj P' L fuel (n + 1)⟩ :=
      fun q t => ⟨rfl, rfl, rfl, rfl, rfl, rfl, rfl, h1, h2, conv_run h fuel n⟩
    rw [makeObj, makeObj]
    simp only [h.cls, h.ownFields]
    refine sim_bind (sim_framed [] ?_) fun _ => sim_bind (sim_framed [] (sim_initFields h (hC _ _) _ _)) fun _ => ?_
    · cases P.cls c with
      | none => exact sim_ret _
      | some o =>
        cases o with
        | none => exact sim_ret _
        | some b => exact sim_initFields h (hC _ _) _ _
    · by_cases hq : among D (c ++ c.getLast?.toList) = true
      · exfalso
        cases c with
        | nil => cases hq
        | cons a c =>
          cases c with
          | nil => cases hq
          | cons b c => cases hq
      · rw [h.fn _ (by simpa using hq)]
        exact sim_ite (sim_bind (h1 _ _ _) fun _ => sim_ret _) (sim_ite (sim_ret _) sim_fail)

end

/-- What the program without the functions does in the end, the other does, too -/
theorem runMain_ok (h : Adds D P P') {fuel depth : Nat} {args : List Val} {input : List Str} {events : List Event} {v : Val} {st : St}
    (hr : runMain P (L.returning D) fuel depth args input events = .ok v st) :
    runMain P' L fuel (depth + 1) args input events = .ok v (st.without D) := by
  have := sim_callFn (L := L) h fuel depth [c!"main"] none args (atStart input events)
  unfold runMain at hr
  rw [hr] at this
  exact this

theorem runMain_wait (h : Adds D P P') {fuel depth : Nat} {args : List Val} {input : List Str} {events : List Event} {st : St}
    (hr : runMain P (L.returning D) fuel depth args input events = .wait st) :
    runMain P' L fuel (depth + 1) args input events = .wait (st.without D) := by
  have := sim_callFn (L := L) h fuel depth [c!"main"] none args (atStart input events)
  unfold runMain at hr
  rw [hr] at this
  exact this

end

end Conv

end Cpp

end Spec

end Rtcg
