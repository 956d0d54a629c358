import Verif.Proofs.CppSem
import Verif.Proofs.CppPreTree

/-
A program with types in place of words does what the program with the words does, where libraries know the words.
-/

namespace Rtcg

namespace Spec

namespace Cpp

namespace Sub

open Sem Subst

/-- One program is another with types in place of words -/
structure Renames (τ : Str → Option CType) (K : Str → Prop) (P P' : Prog) : Prop where
  fn : ∀ q, P'.fn q = (P.fn q).map (fun d => (d.1.map (fun p => (substT τ p.1, p.2)), substSs τ d.2))
  isEnum : ∀ q, P'.isEnum q = P.isEnum q
  cls : ∀ q, P'.cls q = P.cls q
  ownFields : ∀ q, P'.ownFields q = (P.ownFields q).map (fun f => (f.1, f.2.1, f.2.2.map (substE τ)))
  var : ∀ q, P'.var q = (P.var q).map (Option.map (substE τ))
  bodies : ∀ q ps b, P.fn q = some (ps, b) → KSs τ K b
  inits : ∀ q, ∀ f ∈ P.ownFields q, ∀ e, f.2.2 = some e → KE τ K e
  kept : ∀ w, K w → τ w = none
  builtin : τ c!"int" = none ∧ τ c!"unsigned int" = none
  named : ∀ w s, τ w = some s → s.name ≠ []

section

variable {τ : Str → Option CType} {K : Str → Prop} {P P' : Prog} {L : Lib} {α β : Type}

def Sim (τ : Str → Option CType) (r r' : Res α) : Prop :=
  match r with
  | .ok a st => r' = .ok a (st.subst τ)
  | .wait st => r' = .wait (st.subst τ)
  | .wrong => True

def MSim (τ : Str → Option CType) (m m' : M α) : Prop := ∀ st : St, Sim τ (m st) (m' (st.subst τ))

theorem sim_ret (a : α) : MSim τ (M.ret a) (M.ret a) := fun _ => rfl

theorem sim_fail {m' : M α} : MSim τ M.fail m' := fun _ => trivial

theorem sim_ofOption (o : Option α) : MSim τ (M.ofOption o) (M.ofOption o) := by
  cases o with
  | none => exact sim_fail
  | some a => exact sim_ret a

theorem sim_bind {m m' : M α} {f f' : α → M β} (h : MSim τ m m') (hf : ∀ a, MSim τ (f a) (f' a)) : MSim τ (m.bind f) (m'.bind f') := by
  intro st
  have h1 := h st
  unfold M.bind
  cases hm : m st with
  | ok a st1 =>
    rw [hm] at h1
    simp only [Sim] at h1
    rw [h1]
    exact hf a st1
  | wait st1 =>
    rw [hm] at h1
    simp only [Sim] at h1
    rw [h1]
    rfl
  | wrong => trivial

theorem sim_emit (vs : List Val) : MSim τ (emit (.out vs)) (emit (.out vs)) := by
  intro st
  show Res.ok _ _ = Res.ok _ _
  congr 1
  unfold St.subst
  simp [Effect.subst]

theorem sim_setMem (p : List Str) (v : Val) : MSim τ (setMem p v) (setMem p v) := fun _ => rfl

theorem sim_addLocal (x : Str) (t : CType) (v : Val) : MSim τ (addLocal x t v) (addLocal x (substT τ t) v) := fun _ => rfl

theorem setIn_map (x : Str) (v : Val) (l : List (Str × CType × Val)) :
    setIn x v (l.map (fun l => (l.1, substT τ l.2.1, l.2.2))) = (setIn x v l).map (fun l => (l.1, substT τ l.2.1, l.2.2)) := by
  induction l with
  | nil => rfl
  | cons a l ih =>
    rw [List.map_cons, setIn, setIn]
    by_cases h : a.1 = x
    · rw [if_pos h, if_pos h]; rfl
    · rw [if_neg h, if_neg h, ih]; rfl

theorem sim_setLocal (x : Str) (v : Val) : MSim τ (setLocal x v) (setLocal x v) := by
  intro st
  show Res.ok _ _ = Res.ok _ _
  congr 1
  unfold St.subst
  simp only [setIn_map]

theorem getLocal_subst (st : St) (x : Str) : getLocal (st.subst τ) x = (getLocal st x).map (fun l => (substT τ l.1, l.2)) := by
  unfold getLocal St.subst
  rw [List.find?_map]
  cases h : st.loc.find? ((fun l : Str × CType × Val => decide (l.1 = x)) ∘ fun l => (l.1, substT τ l.2.1, l.2.2)) with
  | none =>
    have h' : st.loc.find? (fun l => decide (l.1 = x)) = none := h
    rw [h']; rfl
  | some l =>
    have h' : st.loc.find? (fun l => decide (l.1 = x)) = some l := h
    rw [h']; rfl

theorem sim_inScope {m m' : M α} (h : MSim τ m m') : MSim τ (inScope m) (inScope m') := by
  intro st
  have h1 := h st
  unfold inScope
  cases hm : m st with
  | ok a st1 =>
    rw [hm] at h1
    simp only [Sim] at h1
    rw [h1]
    show Res.ok _ _ = Res.ok _ _
    congr 1
    unfold St.subst
    simp only [List.length_map, List.map_drop]
  | wait st1 =>
    rw [hm] at h1
    simp only [Sim] at h1
    rw [h1]
    rfl
  | wrong => trivial

theorem sim_framed {m m' : M α} (loc : List (Str × CType × Val)) (h : MSim τ m m') :
    MSim τ (framed loc m) (framed (loc.map (fun l => (l.1, substT τ l.2.1, l.2.2))) m') := by
  intro st
  have h1 := h { st with loc := loc }
  unfold framed
  cases hm : m { st with loc := loc } with
  | ok a st1 =>
    rw [hm] at h1
    simp only [Sim] at h1
    rw [show m' { st.subst τ with loc := loc.map (fun l => (l.1, substT τ l.2.1, l.2.2)) } = .ok a (st1.subst τ) from h1]
    rfl
  | wait st1 =>
    rw [hm] at h1
    simp only [Sim] at h1
    rw [show m' { st.subst τ with loc := loc.map (fun l => (l.1, substT τ l.2.1, l.2.2)) } = .wait (st1.subst τ) from h1]
    rfl
  | wrong => trivial

theorem sim_ite {c : Prop} [Decidable c] {a a' b b' : M α} (h1 : MSim τ a a') (h2 : MSim τ b b') :
    MSim τ (if c then a else b) (if c then a' else b') := by
  by_cases h : c
  · rw [if_pos h, if_pos h]; exact h1
  · rw [if_neg h, if_neg h]; exact h2

/-! ### contexts -/

/-- The same place in the two programs -/
structure CtxSim (τ : Str → Option CType) (P P' : Prog) (L : Lib) (C C' : Ctx) : Prop where
  prog : C.prog = P
  prog' : C'.prog = P'
  lib : C.lib = L.named τ
  lib' : C'.lib = L
  self : C'.self = C.self
  this : C'.this = C.this
  fuel : C'.fuel = C.fuel
  call : ∀ q t args, MSim τ (C.call q t args) (C'.call q t args)
  make : ∀ c p args, MSim τ (C.make c p args) (C'.make c p args)

variable {C C' : Ctx}

theorem fields_any (h : Renames τ K P P') (q : List Str) (x : Str) :
    (P'.fields q).any (fun f => f.2.1 = x) = (P.fields q).any (fun f => f.2.1 = x) := by
  have ho : ∀ q, (P'.ownFields q).any (fun f => f.2.1 = x) = (P.ownFields q).any (fun f => f.2.1 = x) := by
    intro q
    rw [h.ownFields, List.any_map]
    rfl
  unfold Prog.fields
  rw [h.cls, List.any_append, List.any_append, ho]
  cases P.cls q with
  | none => rfl
  | some o =>
    cases o with
    | none => rfl
    | some b => rw [ho]

theorem scope_eq (hC : CtxSim τ P P' L C C') : C'.scope = C.scope := by
  unfold Ctx.scope; rw [hC.self]

theorem fieldOf_eq (h : Renames τ K P P') (hC : CtxSim τ P P' L C C') (x : Str) : C'.fieldOf x = C.fieldOf x := by
  unfold Ctx.fieldOf
  rw [hC.this, scope_eq hC, hC.prog, hC.prog']
  cases C.this with
  | none => rfl
  | some p => simp only [fields_any h]

theorem var_val (h : Renames τ K P P') (c : List Str) :
    (match P'.var c with
      | some (some (.num w)) => some ((number w).map Val.int)
      | some _ => some none
      | none => none) =
    (match P.var c with
      | some (some (.num w)) => some ((number w).map Val.int)
      | some _ => some none
      | none => none) := by
  rw [h.var]
  cases P.var c with
  | none => rfl
  | some o =>
    cases o with
    | none => rfl
    | some e => cases e <;> rfl

theorem global_eq (h : Renames τ K P P') (hC : CtxSim τ P P' L C C') (q : List Str) : C'.global q = C.global q := by
  unfold Ctx.global
  rw [scope_eq hC, hC.prog, hC.prog', hC.lib, hC.lib']
  have e : ∀ (F G : List Str → Option (Option Val)), F = G → ∀ (l : List (List Str)) (x : Option Val),
      (match l.findSome? F with | some v => v | none => x) = (match l.findSome? G with | some v => v | none => x) := by
    rintro F _ rfl l x
    rfl
  refine e _ _ (funext fun c => ?_) _ _
  simp only [h.isEnum]
  by_cases hi : P.isEnum c = true
  · rw [if_pos hi, if_pos hi]
  · rw [if_neg hi, if_neg hi]
    exact var_val h c

theorem sim_name (h : Renames τ K P P') (hC : CtxSim τ P P' L C C') (q : List Str) : MSim τ (C.name q) (C'.name q) := by
  intro st
  have ho : ∀ o : Option Val, Sim τ (M.ofOption o st) (M.ofOption o (st.subst τ)) := fun o => sim_ofOption o st
  unfold Ctx.name
  rw [global_eq h hC]
  match q with
  | [] => exact ho _
  | [x] =>
    simp only [fieldOf_eq h hC]
    rw [getLocal_subst]
    cases getLocal st x with
    | some l => rfl
    | none =>
      cases C.fieldOf x with
      | some a => exact ho _
      | none => exact ho _
  | x :: y :: l => exact ho _

theorem sim_assign (h : Renames τ K P P') (hC : CtxSim τ P P' L C C') (q : List Str) (v : Val) : MSim τ (C.assign q v) (C'.assign q v) := by
  intro st
  unfold Ctx.assign
  match q with
  | [] => trivial
  | [x] =>
    simp only [fieldOf_eq h hC]
    rw [getLocal_subst]
    cases getLocal st x with
    | some l => exact sim_setLocal x v st
    | none =>
      cases C.fieldOf x with
      | some a => exact sim_setMem a v st
      | none => trivial
  | x :: y :: l => trivial

theorem fn_some (h : Renames τ K P P') (q : List Str) : (P'.fn q).isSome = (P.fn q).isSome := by
  rw [h.fn, Option.isSome_map]

theorem sim_address (h : Renames τ K P P') (hC : CtxSim τ P P' L C C') (q : List Str) : MSim τ (C.address q) (C'.address q) := by
  intro st
  unfold Ctx.address
  have key : ∀ q', Sim τ (if (C.prog.fn q').isSome then .ok (.addr q') st else .wrong)
      (if (C'.prog.fn q').isSome then Res.ok (Val.addr q') (st.subst τ) else .wrong) := by
    intro q'
    rw [hC.prog, hC.prog', fn_some h]
    by_cases hs : (P.fn q').isSome = true
    · rw [if_pos hs, if_pos hs]; rfl
    · rw [if_neg hs]; trivial
  match q with
  | [] => exact key []
  | [x] =>
    simp only
    rw [getLocal_subst]
    cases getLocal st x with
    | none => trivial
    | some l =>
      obtain ⟨t, v⟩ := l
      cases v <;> first | trivial | rfl
  | x :: y :: l => exact key _

theorem sim_external (hC : CtxSim τ P P' L C C') (q : List Str) (args : List Val) :
    MSim τ (C.external q args) (C'.external (substQ τ q) args) := by
  intro st
  unfold Ctx.external
  rw [hC.lib, hC.lib']
  unfold Lib.named
  simp only
  by_cases ht : L.takes (substQ τ q) args.length = true
  · simp only [ht, if_true]
    show Res.ok _ _ = Res.ok _ _
    unfold St.subst
    simp [Effect.subst]
  · simp only [ht, if_false, Bool.false_eq_true]
    trivial

theorem substQ_eq {q : List Str} (h : ∀ w ∈ q, τ w = none) : substQ τ q = q := by
  unfold substQ
  split
  · rw [h _ (by simp)]
  · rfl

theorem substQ_inv (hn : ∀ w s, τ w = some s → s.name ≠ []) {q r : List Str} (h : substQ τ q = r) :
    q = r ∨ (∃ f x y, r = f :: x :: y ∧ f.head? = some '.') := by
  unfold substQ at h
  split at h
  · next f w =>
    cases hw : τ w with
    | none => rw [hw] at h; exact .inl h
    | some s =>
      rw [hw] at h
      simp only at h
      by_cases hf : f.head? = some '.'
      · rw [if_pos hf] at h
        cases hs : s.name with
        | nil => exact absurd hs (hn w s hw)
        | cons x y => exact .inr ⟨f, x, y, by rw [← h, hs], hf⟩
      · rw [if_neg hf] at h
        exact .inl h
  · exact .inl h

theorem substQ_plain {q r : List Str} (hn : ∀ w s, τ w = some s → s.name ≠ []) (hr : ∀ f x y, r = f :: x :: y → f.head? ≠ some '.')
    (hr' : substQ τ r = r) : substQ τ q = r ↔ q = r := by
  constructor
  · intro h
    rcases substQ_inv hn h with h | ⟨f, x, y, h1, h2⟩
    · exact h
    · exact absurd h2 (hr f x y h1)
  · rintro rfl; exact hr'

theorem substQ_shutdown (hn : ∀ w s, τ w = some s → s.name ≠ []) (q : List Str) :
    substQ τ q = [c!"ros", c!"shutdown"] ↔ q = [c!"ros", c!"shutdown"] := by
  refine substQ_plain hn ?_ ?_
  · rintro f x y ⟨rfl⟩
    decide
  · unfold substQ
    simp only
    cases τ c!"shutdown" with
    | none => rfl
    | some s => exact if_neg (by decide)

theorem substQ_one (hn : ∀ w s, τ w = some s → s.name ≠ []) (q : List Str) (f : Str) : substQ τ q = [f] ↔ q = [f] :=
  substQ_plain hn (by rintro _ _ _ ⟨⟩) rfl

theorem isDown_eq (h : Renames τ K P P') (st : St) : isDown (st.subst τ) = isDown st := by
  unfold isDown St.subst
  simp only [List.any_map]
  congr 1
  funext e
  cases e with
  | out vs => rfl
  | call q args =>
    show decide (substQ τ q = _) = decide (q = _)
    simp only [substQ_shutdown h.named]

theorem registered_eq (h : Renames τ K P P') (e : Event) (st : St) : registered e (st.subst τ) = registered e st := by
  unfold registered St.subst
  simp only [List.any_map]
  congr 1
  funext x
  cases x with
  | out vs => rfl
  | call q args =>
    show ((decide (substQ τ q = _) || decide (substQ τ q = _)) && _ && _) = ((decide (q = _) || decide (q = _)) && _ && _)
    simp only [substQ_one h.named]

theorem sim_spin (h : Renames τ K P P') (hC : CtxSim τ P P' L C C') (es : List Event) : MSim τ (C.spin es) (C'.spin es) := by
  induction es with
  | nil =>
    intro st
    unfold Ctx.spin
    rw [isDown_eq h]
    by_cases hd : isDown st = true
    · rw [if_pos hd, if_pos hd]; rfl
    · rw [if_neg hd, if_neg hd]; rfl
  | cons e es ih =>
    intro st
    unfold Ctx.spin
    rw [isDown_eq h, registered_eq h]
    by_cases hd : isDown st = true
    · rw [if_pos hd, if_pos hd]; rfl
    · rw [if_neg hd, if_neg hd]
      by_cases hr : registered e st = true
      · rw [if_pos hr, if_pos hr]
        exact sim_bind (hC.call _ _ _) (fun _ => ih) { st with events := es }
      · rw [if_neg hr]; trivial

/-! ### calls -/

theorem sim_callName (h : Renames τ K P P') (hC : CtxSim τ P P' L C C') {q : List Str} (hq : ∀ w ∈ q, K w) (args : List Val) :
    MSim τ (C.callName q args) (C'.callName q args) := by
  unfold Ctx.callName
  rw [scope_eq hC, hC.prog, hC.prog']
  simp only [fn_some h]
  cases (candidates C.scope q).find? (fun c => (P.fn c).isSome) with
  | some c =>
    simp only [hC.this]
    exact hC.call _ _ _
  | none =>
    have := sim_external hC q args
    rw [substQ_eq (fun w hw => h.kept w (hq w hw))] at this
    exact sim_ite (fun st => sim_spin h hC st.events st) this

/-- The types after the name of a method -/
def SameTypes (τ : Str → Option CType) (ts ts' : List Str) : Prop := ∀ f : Str, f.head? = some '.' → substQ τ (f :: ts) = f :: ts'

theorem sim_callMethod (h : Renames τ K P P') (hC : CtxSim τ P P' L C C') (v : Val) (f : Str) {ts ts' : List Str} (hts : SameTypes τ ts ts')
    (args : List Val) : MSim τ (C.callMethod v f ts args) (C'.callMethod v f ts' args) := by
  unfold Ctx.callMethod
  cases v with
  | obj p cls =>
    simp only [hC.prog, hC.prog', h.cls, fn_some h]
    refine sim_ite (hC.call _ _ _) ?_
    cases P.cls cls with
    | none => exact sim_fail
    | some o =>
      cases o with
      | none => exact sim_fail
      | some b => exact sim_ite (hC.call _ _ _) sim_fail
  | str s =>
    match args with
    | [] => exact sim_fail
    | [.str t] => exact sim_ite (sim_ret _) sim_fail
    | [.void] => exact sim_fail
    | [.bool _] => exact sim_fail
    | [.int _] => exact sim_fail
    | [.enum _] => exact sim_fail
    | [.obj _ _] => exact sim_fail
    | [.addr _] => exact sim_fail
    | [.glob _] => exact sim_fail
    | [.lib _] => exact sim_fail
    | a :: b :: l =>
      cases a <;> exact sim_fail
  | lib k =>
    have := sim_external hC ((c!"." ++ f) :: ts) (.lib k :: args)
    rw [hts (c!"." ++ f) rfl] at this
    exact this
  | void => exact sim_fail
  | bool b => exact sim_fail
  | int i => exact sim_fail
  | enum q => exact sim_fail
  | addr p => exact sim_fail
  | glob q => exact sim_fail

theorem sameTypes_nil : SameTypes τ [] [] := fun _ _ => rfl

theorem substT_kept (h : ∀ w, K w → τ w = none) {t : CType} (ht : KT K t) : substT τ t = t := by
  unfold substT
  split
  · next w hw => rw [h w (ht w (by rw [hw]; simp))]
  · rfl

theorem sameTypes_inst (h : Renames τ K P P') {t : CType} (ht : TM τ K t) : SameTypes τ t.name (substT τ t).name := by
  intro f hf
  rcases ht with ht | ⟨w, s, h1, _, h2⟩
  · rw [substT_kept h.kept ht]
    unfold substQ
    split
    · next g w hw =>
      obtain ⟨rfl, hw'⟩ := List.cons.inj hw
      rw [h.kept w (ht w (by rw [hw']; simp)), ← hw']
    · rfl
  · unfold substT
    rw [h1]
    simp only [substQ, h2]
    rw [if_pos hf]

theorem readAs_subst (h : Renames τ K P P') {t : CType} {w : Str} {v : Val} (hr : readAs t w = some v) : readAs (substT τ t) w = some v := by
  have : substT τ t = t := by
    unfold readAs at hr
    split at hr
    · cases hr
    · split at hr
      · next hn => unfold substT; rw [hn]
      · split at hr
        · next hn => unfold substT; rw [hn]; simp only [h.builtin.1]
        · split at hr
          · next hn => unfold substT; rw [hn]; simp only [h.builtin.2]
          · cases hr
  rw [this, hr]

theorem sim_readInto (h : Renames τ K P P') (x : Str) : MSim τ (readInto x) (readInto x) := by
  intro st
  unfold readInto
  rw [getLocal_subst, show (st.subst τ).input = st.input from rfl]
  cases getLocal st x with
  | none => trivial
  | some l =>
    cases st.input with
    | nil => rfl
    | cons w ws =>
      simp only [Option.map_some]
      cases hr : readAs l.1 w with
      | none => trivial
      | some v =>
        rw [readAs_subst h hr]
        show Res.ok _ _ = Res.ok _ _
        congr 1
        unfold St.subst
        simp only [setIn_map]

theorem nameOf_subst (e : Expr) : nameOf (substE τ e) = nameOf e := by cases e <;> rfl

theorem sim_readTail (h : Renames τ K P P') (t : Tail) : MSim τ (readTail t) (readTail (substTl τ t)) := by
  match t with
  | .nil => exact sim_ret _
  | .cons op e t =>
    rw [substTl]
    unfold readTail
    rw [nameOf_subst]
    have ih := sim_readTail h t
    match nameOf e with
    | none => exact sim_fail
    | some [] => exact sim_fail
    | some [x] => exact sim_ite (sim_bind (sim_readInto h x) fun _ => ih) sim_fail
    | some (x :: y :: l) => exact sim_fail

theorem sim_not (v : Val) : MSim τ (not' v) (not' v) := by
  cases v <;> first | exact sim_fail | exact sim_ret _

theorem sim_neg (v : Val) : MSim τ (neg v) (neg v) := by
  cases v <;> first | exact sim_fail | exact sim_ret _

theorem sim_truth (v : Val) : MSim τ (truth v) (truth v) := by
  cases v <;> first | exact sim_fail | exact sim_ret _

/-! ### expressions -/

mutual

theorem sim_evalE (h : Renames τ K P P') (hC : CtxSim τ P P' L C C') : (e : Expr) → KE τ K e → MSim τ (evalE C e) (evalE C' (substE τ e))
  | .name q, _ => by rw [substE, evalE, evalE]; exact sim_name h hC q
  | .str s, _ => by rw [substE, evalE, evalE]; exact sim_ret _
  | .num w, _ => by rw [substE, evalE, evalE]; exact sim_ofOption _
  | .bool b, _ => by rw [substE, evalE, evalE]; exact sim_ret _
  | .post e s, hk => by
    have he := sim_evalE h hC e hk.1
    have hother : ∀ s : Suf, (∀ q a s', nameOf e = some q → s = .call a s' → False) → (∀ v, MSim τ (evalS C v s) (evalS C' v (substS τ s))) →
        MSim τ (evalE C (.post e s)) (evalE C' (substE τ (.post e s))) := by
      intro s hs hv
      have e1 : evalE C (.post e s) = M.bind (evalE C e) (fun v => evalS C v s) := by
        rw [evalE]
        · rfl
        · intro q a s' h1 h2; exact hs q a s' h1 h2
      have e2 : evalE C' (substE τ (.post e s)) = M.bind (evalE C' (substE τ e)) (fun v => evalS C' v (substS τ s)) := by
        rw [substE, evalE]
        · rfl
        · intro q a s' h1 h2
          rw [nameOf_subst] at h1
          cases s with
          | call a0 s0 => exact hs q a0 s0 h1 rfl
          | nil => cases h2
          | dot _ _ => cases h2
          | arrow _ _ => cases h2
          | inst _ _ => cases h2
      rw [e1, e2]
      exact sim_bind he hv
    have hs := fun v => sim_evalS h hC v s hk.2
    cases s with
    | call a s' =>
      cases hn : nameOf e with
      | none => exact hother _ (by intro q a s' h1; rw [hn] at h1; cases h1) hs
      | some q =>
        have e1 := evalE.eq_5 C e q a s' hn
        have e2 := evalE.eq_5 C' (substE τ e) q (substA τ a) (substS τ s') (by rw [nameOf_subst, hn])
        rw [e1, substE, substS, e2]
        have hq : ∀ w ∈ q, K w := by
          cases e with
          | name q' => cases hn; exact hk.1
          | _ => cases hn
        have ha := sim_evalA h hC a hk.2.1
        have hl := sim_evalLog h hC a hk.2.1
        have hs' := fun v => sim_evalS h hC v s' hk.2.2
        exact sim_ite (sim_bind hl fun vs => sim_bind (sim_emit _) fun _ => sim_ret _)
          (sim_bind ha fun vs => sim_bind (sim_callName h hC hq vs) hs')
    | nil => exact hother _ (by intro q a s' _ h1; cases h1) hs
    | dot f s' => exact hother _ (by intro q a s' _ h1; cases h1) hs
    | arrow f s' => exact hother _ (by intro q a s' _ h1; cases h1) hs
    | inst f s' => exact hother _ (by intro q a s' _ h1; cases h1) hs
  | .un op e, hk => by
    have he := sim_evalE h hC e hk
    rw [substE, evalE, evalE, nameOf_subst]
    refine sim_ite (sim_bind he sim_not) (sim_ite (sim_bind he sim_neg) ?_)
    cases nameOf e with
    | none => exact sim_fail
    | some q => exact sim_address h hC q
  | .shift e t, hk => by
    have he := sim_evalE h hC e hk.1
    have ht := sim_evalT h hC t hk.2
    rw [substE, evalE, evalE, nameOf_subst]
    exact sim_ite (sim_bind (sim_readTail h t) fun _ => sim_ret _)
      (sim_bind he fun v => sim_bind ht fun vs => sim_bind (sim_emit _) fun _ => sim_ret _)
  | .eq op a b, hk => by
    have ha := sim_evalE h hC a hk.1
    have hb := sim_evalE h hC b hk.2
    rw [substE, evalE, evalE]
    refine sim_bind ha fun x => sim_bind hb fun y => ?_
    cases veq x y with
    | none => exact sim_fail
    | some r => exact sim_ret _
  | .and a b, hk => by
    have ha := sim_evalE h hC a hk.1
    have hb := sim_evalE h hC b hk.2
    rw [substE, evalE, evalE]
    exact sim_bind ha fun x => sim_bind (sim_truth x) fun r =>
      sim_ite (sim_bind hb fun y => sim_bind (sim_truth y) fun r => sim_ret _) (sim_ret _)
  | .assign a b, hk => by
    have hb := sim_evalE h hC b hk.2
    rw [substE, evalE, evalE, nameOf_subst]
    refine sim_bind hb fun v => ?_
    cases nameOf a with
    | none => exact sim_fail
    | some q => exact sim_bind (sim_assign h hC q v) fun _ => sim_ret _

theorem sim_evalS (h : Renames τ K P P') (hC : CtxSim τ P P' L C C') (v : Val) : (s : Suf) → KS τ K s →
    MSim τ (evalS C v s) (evalS C' v (substS τ s))
  | .nil, _ => by rw [substS, evalS, evalS]; exact sim_ret _
  | .dot f (.call a s), hk => by
    have ha := sim_evalA h hC a hk.2.1
    have hs := fun v => sim_evalS h hC v s hk.2.2
    rw [substS, substS, evalS, evalS]
    exact sim_bind ha fun vs => sim_bind (sim_callMethod h hC v f sameTypes_nil vs) hs
  | .dot f (.inst t (.call a s)), hk => by
    have ha := sim_evalA h hC a hk.2.2.1
    have hs := fun v => sim_evalS h hC v s hk.2.2.2
    rw [substS, substS, substS, evalS, evalS]
    exact sim_bind ha fun vs => sim_bind (sim_callMethod h hC v f (sameTypes_inst h hk.2.1) vs) hs
  | .dot f .nil, _ => by simp only [evalS]; exact sim_fail
  | .dot f (.dot _ _), _ => by simp only [evalS]; exact sim_fail
  | .dot f (.arrow _ _), _ => by simp only [evalS]; exact sim_fail
  | .dot f (.inst t .nil), _ => by simp only [evalS]; exact sim_fail
  | .dot f (.inst t (.dot _ _)), _ => by simp only [evalS]; exact sim_fail
  | .dot f (.inst t (.arrow _ _)), _ => by simp only [evalS]; exact sim_fail
  | .dot f (.inst t (.inst _ _)), _ => by simp only [evalS]; exact sim_fail
  | .arrow _ _, _ => by simp only [evalS]; exact sim_fail
  | .inst _ _, _ => by simp only [evalS]; exact sim_fail
  | .call _ _, _ => by simp only [evalS]; exact sim_fail

theorem sim_evalA (h : Renames τ K P P') (hC : CtxSim τ P P' L C C') : (a : Args) → KA τ K a → MSim τ (evalA C a) (evalA C' (substA τ a))
  | .nil, _ => by rw [substA, evalA, evalA]; exact sim_ret _
  | .cons e a, hk => by
    have he := sim_evalE h hC e hk.1
    have ha := sim_evalA h hC a hk.2
    rw [substA, evalA, evalA]
    exact sim_bind he fun v => sim_bind ha fun vs => sim_ret _

theorem sim_evalT (h : Renames τ K P P') (hC : CtxSim τ P P' L C C') : (t : Tail) → KTl τ K t → MSim τ (evalT C t) (evalT C' (substTl τ t))
  | .nil, _ => by rw [substTl, evalT, evalT]; exact sim_ret _
  | .cons op e t, hk => by
    have he := sim_evalE h hC e hk.1
    have ht := sim_evalT h hC t hk.2
    rw [substTl, evalT, evalT]
    exact sim_ite (sim_bind he fun v => sim_bind ht fun vs => sim_ret _) sim_fail

theorem sim_evalLog (h : Renames τ K P P') (hC : CtxSim τ P P' L C C') : (a : Args) → KA τ K a →
    MSim τ (evalLog C a) (evalLog C' (substA τ a))
  | .cons (.shift e t) .nil, hk => by
    have he := sim_evalE h hC e hk.1.1
    have ht := sim_evalT h hC t hk.1.2
    rw [substA, substA, substE, evalLog, evalLog]
    exact sim_bind he fun v => sim_bind ht fun vs => sim_ret _
  | .nil, _ => by simp only [evalLog]; exact sim_fail
  | .cons (.shift e t) (.cons _ _), _ => by simp only [evalLog]; exact sim_fail
  | .cons (.name _) _, _ => by simp only [evalLog]; exact sim_fail
  | .cons (.str _) _, _ => by simp only [evalLog]; exact sim_fail
  | .cons (.num _) _, _ => by simp only [evalLog]; exact sim_fail
  | .cons (.bool _) _, _ => by simp only [evalLog]; exact sim_fail
  | .cons (.post _ _) _, _ => by simp only [evalLog]; exact sim_fail
  | .cons (.un _ _) _, _ => by simp only [evalLog]; exact sim_fail
  | .cons (.eq _ _ _) _, _ => by simp only [evalLog]; exact sim_fail
  | .cons (.and _ _) _, _ => by simp only [evalLog]; exact sim_fail
  | .cons (.assign _ _) _, _ => by simp only [evalLog]; exact sim_fail

end

/-! ### statements -/

theorem classOf_eq (h : Renames τ K P P') (hC : CtxSim τ P P' L C C') (q : List Str) : C'.classOf q = C.classOf q := by
  unfold Ctx.classOf
  rw [scope_eq hC, hC.prog, hC.prog']
  simp only [h.cls]

theorem initial_eq (t : CType) : initial (L.named τ) t = initial L t := rfl

theorem sim_addKept (h : Renames τ K P P') {t : CType} (ht : KT K t) (x : Str) (v : Val) : MSim τ (addLocal x t v) (addLocal x t v) := by
  have := sim_addLocal (τ := τ) x t v
  rwa [substT_kept h.kept ht] at this

theorem sim_object (h : Renames τ K P P') (hC : CtxSim τ P P' L C C') {t : CType} (ht : KT K t) (x : Str) (args : List Val) :
    MSim τ (C.object t x args) (C'.object t x args) := by
  unfold Ctx.object
  rw [classOf_eq h hC, hC.self]
  cases C.classOf t.name with
  | none => exact sim_fail
  | some c => exact sim_bind (hC.make _ _ _) fun _ => sim_addKept h ht _ _

theorem sim_declare (h : Renames τ K P P') (hC : CtxSim τ P P' L C C') {t : CType} (ht : KT K t) (x : Str) :
    MSim τ (C.declare t x) (C'.declare t x) := by
  unfold Ctx.declare
  rw [classOf_eq h hC]
  cases C.classOf t.name with
  | some c => exact sim_object h hC ht x []
  | none =>
    simp only [hC.lib, hC.lib', initial_eq]
    cases initial L t with
    | none => exact sim_fail
    | some v => exact sim_addKept h ht _ _

theorem isCase_eq (h : Renames τ K P P') (hC : CtxSim τ P P' L C C') (v : Val) (s : Stmt) : C'.isCase v (substSt τ s) = C.isCase v s := by
  cases s with
  | case e =>
    cases e with
    | name q => simp only [substSt, substE, Ctx.isCase, global_eq h hC]
    | _ => rfl
  | _ => rfl

theorem isDefault_eq (s : Stmt) : isDefault (substSt τ s) = isDefault s := by cases s <;> rfl

theorem hasCase_eq (h : Renames τ K P P') (hC : CtxSim τ P P' L C C') (v : Val) : (ss : Stmts) → C'.hasCase v (substSs τ ss) = C.hasCase v ss
  | .nil => rfl
  | .cons s ss => by
    rw [substSs, Ctx.hasCase, Ctx.hasCase, isCase_eq h hC, hasCase_eq h hC v ss]

theorem sim_iterate {c c' : M Bool} {s s' : M Unit} {b b' : M Flow} (hc : MSim τ c c') (hs : MSim τ s s') (hb : MSim τ b b') (n : Nat) :
    MSim τ (iterate c s b n) (iterate c' s' b' n) := by
  induction n with
  | zero => exact sim_fail
  | succ n ih =>
    unfold iterate
    refine sim_bind hc fun r => sim_ite (sim_bind hb fun f => ?_) (sim_ret _)
    cases f with
    | ret v => exact sim_ret _
    | brk => exact sim_ret _
    | next => exact sim_bind hs fun _ => ih

mutual

theorem sim_execS (h : Renames τ K P P') (hC : CtxSim τ P P' L C C') : (s : Stmt) → KSt τ K s → MSim τ (execS C s) (execS C' (substSt τ s))
  | .skip, _ => by rw [substSt, execS, execS]; exact sim_ret _
  | .expr e, hk => by rw [substSt, execS, execS]; exact sim_bind (sim_evalE h hC e hk) fun _ => sim_ret _
  | .decl t x, hk => by
    rw [substSt, execS, execS, substT_kept h.kept hk.1]
    exact sim_bind (sim_declare h hC hk.1 x) fun _ => sim_ret _
  | .declEq t x e, hk => by
    rw [substSt, execS, execS, substT_kept h.kept hk.1]
    exact sim_bind (sim_evalE h hC e hk.2.2) fun v => sim_bind (sim_addKept h hk.1 _ _) fun _ => sim_ret _
  | .declBraces t x a, hk => by
    rw [substSt, execS, execS, substT_kept h.kept hk.1]
    exact sim_bind (sim_evalA h hC a hk.2.2) fun vs => sim_bind (sim_object h hC hk.1 x vs) fun _ => sim_ret _
  | .ret, _ => by rw [substSt, execS, execS]; exact sim_ret _
  | .retVal e, hk => by rw [substSt, execS, execS]; exact sim_bind (sim_evalE h hC e hk) fun _ => sim_ret _
  | .brk, _ => by rw [substSt, execS, execS]; exact sim_ret _
  | .ite c a b, hk => by
    have ha := sim_execS h hC a hk.2.1
    have hb := sim_execS h hC b hk.2.2
    rw [substSt, execS, execS]
    exact sim_bind (sim_evalE h hC c hk.1) fun v => sim_bind (sim_truth v) fun r => sim_ite (sim_inScope ha) (sim_inScope hb)
  | .switch e b, hk => by
    have hb := fun sel sel' hsel on => sim_execFrom h hC sel sel' hsel on b hk.2
    rw [substSt, execS, execS]
    refine sim_bind (sim_evalE h hC e hk.1) fun v => ?_
    rw [hasCase_eq h hC]
    refine sim_bind (sim_inScope (hb _ _ ?_ _)) fun f => ?_
    · intro s
      by_cases hh : C.hasCase v b = true
      · rw [if_pos hh, if_pos hh]; exact isCase_eq h hC v s
      · rw [if_neg hh, if_neg hh]; exact isDefault_eq s
    · cases f <;> exact sim_ret _
  | .case _, _ => by rw [substSt, execS, execS]; exact sim_ret _
  | .dflt, _ => by rw [substSt, execS, execS]; exact sim_ret _
  | .block b, hk => by
    have hb := sim_execSs h hC b hk
    rw [substSt, execS, execS]
    exact sim_inScope hb
  | .loop t x e c s b, hk => by
    have hb := sim_execS h hC b hk.2.2.2.2.2
    rw [substSt, execS, execS, hC.fuel, substT_kept h.kept hk.1]
    exact sim_inScope (sim_bind (sim_evalE h hC e hk.2.2.1) fun v => sim_bind (sim_addKept h hk.1 _ _) fun _ =>
      sim_iterate (sim_bind (sim_evalE h hC c hk.2.2.2.1) sim_truth) (sim_bind (sim_evalE h hC s hk.2.2.2.2.1) fun _ => sim_ret _)
        (sim_inScope hb) _)

theorem sim_execSs (h : Renames τ K P P') (hC : CtxSim τ P P' L C C') : (ss : Stmts) → KSs τ K ss →
    MSim τ (execSs C ss) (execSs C' (substSs τ ss))
  | .nil, _ => by rw [substSs, execSs, execSs]; exact sim_ret _
  | .cons s ss, hk => by
    have hs := sim_execS h hC s hk.1
    have hss := sim_execSs h hC ss hk.2
    rw [substSs, execSs, execSs]
    refine sim_bind hs fun f => ?_
    cases f with
    | next => exact hss
    | brk => exact sim_ret _
    | ret v => exact sim_ret _

theorem sim_execFrom (h : Renames τ K P P') (hC : CtxSim τ P P' L C C') (sel sel' : Stmt → Bool) (hsel : ∀ s, sel' (substSt τ s) = sel s)
    (on : Bool) : (ss : Stmts) → KSs τ K ss → MSim τ (execFrom C sel on ss) (execFrom C' sel' on (substSs τ ss))
  | .nil, _ => by rw [substSs, execFrom, execFrom]; exact sim_ret _
  | .cons s ss, hk => by
    have hs := sim_execS h hC s hk.1
    have hss := fun on => sim_execFrom h hC sel sel' hsel on ss hk.2
    rw [substSs, execFrom, execFrom, hsel]
    refine sim_ite (sim_bind hs fun f => ?_) (hss _)
    cases f with
    | next => exact hss true
    | brk => exact sim_ret _
    | ret v => exact sim_ret _

end

/-! ### functions and objects -/

theorem sim_result (f : Flow) : MSim τ (result f) (result f) := by
  cases f <;> first | exact sim_fail | exact sim_ret _

theorem sim_initField (h : Renames τ K P P') (hC : CtxSim τ P P' L C C') (p : List Str) (f : CType × Str × Option Expr)
    (hf : ∀ e, f.2.2 = some e → KE τ K e) :
    MSim τ (initField C p f) (initField C' p (f.1, f.2.1, f.2.2.map (substE τ))) := by
  unfold initField
  rw [classOf_eq h hC, hC.lib, hC.lib', initial_eq]
  cases he : f.2.2 with
  | some e => exact sim_bind (sim_evalE h hC e (hf e he)) fun v => sim_setMem _ _
  | none =>
    simp only [Option.map_none]
    cases C.classOf f.1.name with
    | some c => exact sim_bind (hC.make _ _ _) fun _ => sim_setMem _ _
    | none =>
      cases initial L f.1 with
      | none => exact sim_fail
      | some v => exact sim_setMem _ _

theorem sim_initFields (h : Renames τ K P P') (hC : CtxSim τ P P' L C C') (p : List Str) (fs : List (CType × Str × Option Expr))
    (hf : ∀ f ∈ fs, ∀ e, f.2.2 = some e → KE τ K e) :
    MSim τ (initFields C p fs) (initFields C' p (fs.map (fun f => (f.1, f.2.1, f.2.2.map (substE τ))))) := by
  induction fs with
  | nil => exact sim_ret _
  | cons f fs ih =>
    rw [List.map_cons]
    unfold initFields
    exact sim_bind (sim_initField h hC p f (hf f (by simp))) fun _ => ih (fun g hg => hf g (by simp [hg]))

theorem bindParams_subst (ps : List Param) (vs : List Val) : bindParams (ps.map (fun p => (substT τ p.1, p.2))) vs =
    (bindParams ps vs).map (fun loc => loc.map (fun l => (l.1, substT τ l.2.1, l.2.2))) := by
  induction ps generalizing vs with
  | nil => cases vs <;> rfl
  | cons p ps ih =>
    cases vs with
    | nil => rfl
    | cons v vs =>
      rw [List.map_cons, bindParams, bindParams, ih]
      cases bindParams ps vs <;> rfl

mutual

theorem sim_callFn (h : Renames τ K P P') (fuel : Nat) : (n : Nat) → (q : List Str) → (t : Option (List Str)) → (args : List Val) →
    MSim τ (callFn P (L.named τ) fuel n q t args) (callFn P' L fuel n q t args)
  | 0, _, _, _ => by rw [callFn]; exact sim_fail
  | n + 1, q, t, args => by
    have h1 := fun q t args => sim_callFn h fuel n q t args
    have h2 := fun c p args => sim_makeObj h fuel n c p args
    rw [callFn, callFn, h.fn q]
    cases hq : P.fn q with
    | none => exact sim_fail
    | some d =>
      obtain ⟨ps, b⟩ := d
      simp only [Option.map_some, bindParams_subst]
      cases bindParams ps args with
      | none => exact sim_fail
      | some loc =>
        simp only [Option.map_some]
        have hC : CtxSim τ P P' L ⟨P, L.named τ, q, t, fuel, callFn P (L.named τ) fuel n, makeObj P (L.named τ) fuel n⟩
          ⟨P', L, q, t, fuel, callFn P' L fuel n, makeObj P' L fuel n⟩ :=
          ⟨rfl, rfl, rfl, rfl, rfl, rfl, rfl, h1, h2⟩
        exact sim_framed loc (sim_bind (sim_execSs h hC b (h.bodies q ps b hq)) sim_result)

theorem sim_makeObj (h : Renames τ K P P') (fuel : Nat) : (n : Nat) → (c p : List Str) → (args : List Val) →
    MSim τ (makeObj P (L.named τ) fuel n c p args) (makeObj P' L fuel n c p args)
  | 0, _, _, _ => by rw [makeObj]; exact sim_fail
  | n + 1, c, p, args => by
    have h1 := fun q t args => sim_callFn h fuel n q t args
    have h2 := fun c p args => sim_makeObj h fuel n c p args
    have hC : ∀ q t, CtxSim τ P P' L ⟨P, L.named τ, q, t, fuel, callFn P (L.named τ) fuel n, makeObj P (L.named τ) fuel n⟩
      ⟨P', L, q, t, fuel, callFn P' L fuel n, makeObj P' L fuel n⟩ :=
      fun q t => ⟨rfl, rfl, rfl, rfl, rfl, rfl, rfl, h1, h2⟩
    rw [makeObj, makeObj]
    simp only [h.cls, h.ownFields, fn_some h]
    refine sim_bind (sim_framed [] ?_) fun _ => sim_bind (sim_framed [] (sim_initFields h (hC _ _) _ _ (h.inits c))) fun _ => ?_
    · cases P.cls c with
      | none => exact sim_ret _
      | some o =>
        cases o with
        | none => exact sim_ret _
        | some b => exact sim_initFields h (hC _ _) _ _ (h.inits b)
    · exact sim_ite (sim_bind (h1 _ _ _) fun _ => sim_ret _) (sim_ite (sim_ret _) sim_fail)

end

/-- What the program with the words does in the end, the other does, too -/
theorem runMain_ok (h : Renames τ K P P') {fuel depth : Nat} {args : List Val} {input : List Str} {events : List Event} {v : Val} {st : St}
    (hr : runMain P (L.named τ) fuel depth args input events = .ok v st) :
    runMain P' L fuel depth args input events = .ok v (st.subst τ) := by
  have := sim_callFn (L := L) h fuel depth [c!"main"] none args (atStart input events)
  unfold runMain at hr
  rw [hr] at this
  exact this

theorem runMain_wait (h : Renames τ K P P') {fuel depth : Nat} {args : List Val} {input : List Str} {events : List Event} {st : St}
    (hr : runMain P (L.named τ) fuel depth args input events = .wait st) :
    runMain P' L fuel depth args input events = .wait (st.subst τ) := by
  have := sim_callFn (L := L) h fuel depth [c!"main"] none args (atStart input events)
  unfold runMain at hr
  rw [hr] at this
  exact this

end

end Sub

end Cpp

end Spec

end Rtcg
