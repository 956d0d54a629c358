import Verif.Proofs.CppBlocks
import Verif.Proofs.TemplateExec
import Verif.Proofs.Text

/-
The tokens of the functions of main.cpp.
-/

set_option linter.unusedSimpArgs false

namespace Rtcg

namespace Spec

namespace Cpp

namespace Lex

open Tree (stmtsOf argsOf)
open Parse (pSs pSt pItem pItems pE pA pParams pType)
open CppText Templates Rtcg.Cpp Tmpl

variable {U : Unicode} {v : Variant}

/-! ### the constructor and the helpers -/

/-- The installation of a publisher -/
def pubInstall (U : Unicode) (a : AggregateSet) : Str := c!"\n  " ++ publisherName U a.channel ++ c!"_ = " ++ publisherName U a.channel ++ c!";"

theorem installHandles_blk (h : Env U v) {tc : TransitionContext} (hin : ∀ a ∈ tc.in_, GoodAggregate U a) :
    Blk (installHandles U v tc) (pSs (stmtsOf (Tree.installs U v tc))) := by
  have b1 : Blk (tc.in_.flatMap (pubInstall U)) (tc.in_.flatMap fun a =>
      pSt (.expr (.assign (Tree.nm (publisherName U a.channel ++ c!"_")) (Tree.nm (publisherName U a.channel))))) :=
    Blk.flatMap tc.in_ fun a ha => by
      have h1 := ident_W (hin a ha).1.2.2.2.2.2.1
      block h with [pubInstall, h1]
  have e : (fun a : AggregateSet => c!"\n  " ++ publisherName U a.channel ++ c!"_ = " ++ publisherName U a.channel ++ c!";") = pubInstall U := rfl
  unfold installHandles Tree.installs
  rcases h.v with rfl | rfl
  · exact Blk.nil
  · rw [if_pos rfl, if_pos rfl, e]
    exact ⟨NL.head rfl, fun rest hr => by lexing [hr, pSs_map, b1.run, b1.nl, NL.app]⟩

theorem ctor_run (h : Env U v) {tc : TransitionContext} {first : Str} (hf : GoodId U first) (hin : ∀ a ∈ tc.in_, GoodAggregate U a)
    (rest : Str) (hr : NL rest) :
    L .idle (ctor U v tc first ++ rest) = pItem (Tree.ctorItem U v tc first) ++ L .idle rest := by
  have b3 := installHandles_blk h hin
  have hw := ident_W hf.2.1
  have hc := ctorParams_run (v := v) hin
  cases h1 : tc.firstStateHasIn <;>
    lexing [ctor, hw, hc, h1, Tree.ctorItem, Tree.SM, Tree.enterS, NL.app, NL.cons, b3.run, b3.nl, Bool.false_eq_true, hr]

theorem helpers_blk (h : Env U v) : Blk (helpers U v) (pItems (Tree.helperItems U v)) := by
  block h with [helpers, Tree.helperItems, Tree.SM, Tree.running]

theorem timeout_blk (h : Env U v) : Blk (timeoutCallback U v) (pItem (Tree.timeoutItem U v)) := by
  block h with [timeoutCallback, timerArgs, Tree.timerParams, Tree.timeoutItem, Tree.SM, Tree.running, Tree.endS]

theorem delay_blk (h : Env U v) {first : Str} (hf : GoodId U first) :
    Blk (initialDelayCallback U v first) (pItem (Tree.delayItem U v first)) := by
  have hw := ident_W hf.2.1
  block h with [initialDelayCallback, timerArgs, Tree.timerParams, Tree.delayItem, Tree.SM, Tree.enterS, hw]

/-! ### the callback for accepted inputs -/

theorem acceptedCase_blk (h : Env U v) {e : Str × List Transition} (hi : GoodId U e.1) (hne : e.2 ≠ [])
    (ht : ∀ t ∈ e.2, GoodTransition U t) : Blk (CppText.acceptedCase U v e) (pSs (stmtsOf (Tree.acceptedCase U v e))) := by
  obtain ⟨id, ts⟩ := e
  cases ts with
  | nil => exact absurd rfl hne
  | cons t ts =>
    have h1 := ident_W hi.1
    have h2 := hi.2.2
    have h3 := ident_W (ht t (by simp)).2.2.1
    simp only at h1 h2 h3
    block h with [CppText.acceptedCase, Tree.acceptedCase, List.head?_cons, Option.elim_some, stateEnum, localEnumName, Tree.stateE, h1, h2, h3]

theorem accepted_blk (h : Env U v) {mm : GoMap Str (List Transition)}
    (hm : ∀ e ∈ mm, GoodId U e.1 ∧ e.2 ≠ [] ∧ ∀ t ∈ e.2, GoodTransition U t) :
    Blk (inputAcceptedCallback U v mm) (pItem (Tree.acceptedItem U v mm)) := by
  have b1 := Blk.flatMap (sortEntries mm) (f := CppText.acceptedCase U v) (p := fun e => pSs (stmtsOf (Tree.acceptedCase U v e)))
    fun e he => acceptedCase_blk h (hm e ((Exec.mem_sortEntries mm e).1 he)).1 (hm e ((Exec.mem_sortEntries mm e).1 he)).2.1
      (hm e ((Exec.mem_sortEntries mm e).1 he)).2.2
  block h with [inputAcceptedCallback, acceptedArgs, Tree.acceptedParams, Tree.acceptedItem, Tree.SM, Tree.endS, b1.run, b1.nl]

/-! ### values -/

theorem decNat_W (n : Nat) : W (decNat n) := by
  refine ⟨decNat_ne_nil n, ?_⟩
  rw [List.all_eq_true]
  intro c hc
  obtain ⟨h1, h2⟩ := decNat_digits n c hc
  have h1 : 48 ≤ c.toNat := h1
  have h2 : c.toNat ≤ 57 := h2
  simp [wordChar, h1, h2]

theorem int_not_enum (i : Int64) : (Value.int i).type.isEnum = false := by
  by_cases hi : 0 ≤ i.toInt
  · simp only [Value.type, if_pos hi]; rfl
  · simp only [Value.type, if_neg hi]; rfl

theorem value_run {x : Value} (hx : GoodValue x) (rest : Str) :
    L (.op '(') (Cpp.value x ++ ')' :: rest) = .op c!"(" :: (pE (Tree.valueE x) ++ L .idle (')' :: rest)) := by
  cases x with
  | none => exact absurd rfl hx.1
  | int i =>
    have hw := decNat_W i.toInt.natAbs
    simp only [Cpp.value, int_not_enum, Bool.false_eq_true, if_false, Tree.valueE, Tree.intE, Value.stringValue, formatInt]
    by_cases hi : i.toInt < 0
    · lexing [hi, hw]
    · lexing [hi, hw]
  | enum s =>
    have hp : Plain s := hx.2
    have he : (Value.enum s).type.isEnum = true := rfl
    lexing [Cpp.value, he, Value.stringValue, hp, Tree.valueE]

/-! ### the callbacks for outputs -/

/-- `if (test) enterX();` -/
def pBranch (U : Unicode) (t : Transition) : List Tok :=
  .word c!"if" :: .op c!"(" :: (pE (Tree.testE t.value) ++ .op c!")" :: pSt (Tree.enterS U t.next))

theorem pSt_ite {c : Expr} {a b : Stmt} (hb : b ≠ .skip) :
    pSt (.ite c a b) = .word c!"if" :: .op c!"(" :: (pE c ++ .op c!")" :: (pSt a ++ .word c!"else" :: pSt b)) := by
  cases b <;> first | exact absurd rfl hb | rfl

theorem chain_ne {other : Stmt} (h : other ≠ .skip) (l : List Transition) : Tree.chain U other l ≠ .skip := by
  cases l with
  | nil => exact h
  | cons t l => intro he; cases he

theorem pSt_chain {other : Stmt} (h : other ≠ .skip) (t : Transition) (l : List Transition) :
    pSt (Tree.chain U other (t :: l)) =
      pBranch U t ++ (l.flatMap (fun t => .word c!"else" :: pBranch U t) ++ .word c!"else" :: pSt other) := by
  induction l generalizing t with
  | nil =>
    rw [Tree.chain, pSt_ite (chain_ne h _)]
    simp only [Tree.chain, pBranch, List.flatMap_nil, List.nil_append, List.append_assoc, List.cons_append]
  | cons t' l ih =>
    rw [Tree.chain, pSt_ite (chain_ne h _), ih]
    simp only [pBranch, List.flatMap_cons, List.append_assoc, List.cons_append]

theorem outBranch_blk (h : Env U v) {t : Transition} (ht : GoodTransition U t) (i : Nat) :
    Blk (outBranch U t i) ((if i = 0 then [] else [.word c!"else"]) ++ pBranch U t) := by
  have hw := ident_W ht.2.2.1
  have hg := ht.1
  obtain ⟨x, nx⟩ := t
  simp only at hw hg
  cases x with
  | none => exact absurd rfl hg.1
  | int k =>
    have hd := decNat_W k.toInt.natAbs
    have he := int_not_enum k
    by_cases hi : i = 0 <;> by_cases hk : k.toInt < 0 <;>
      block h with [outBranch, hi, hk, hw, hd, he, pBranch, Tree.testE, Tree.valueE, Tree.intE, Value.stringValue, formatInt, Tree.enterS,
        Bool.false_eq_true]
  | enum s =>
    have hp : Plain s := hg.2
    have he : (Value.enum s).type.isEnum = true := rfl
    by_cases hi : i = 0 <;>
      block h with [outBranch, hi, hw, hp, he, pBranch, Tree.testE, Tree.valueE, Value.stringValue, Tree.enterS]

theorem branches_pos (h : Env U v) (l : List Transition) (ht : ∀ t ∈ l, GoodTransition U t) (k : Nat) :
    Blk ((l.zipIdx (k + 1)).flatMap (fun ti => outBranch U ti.1 ti.2)) (l.flatMap (fun t => .word c!"else" :: pBranch U t)) := by
  induction l generalizing k with
  | nil => exact Blk.nil
  | cons t l ih =>
    rw [List.zipIdx_cons, List.flatMap_cons, List.flatMap_cons]
    exact (outBranch_blk h (ht t (by simp)) (k + 1)).app (ih (fun t ht' => ht t (List.mem_cons_of_mem _ ht')) (k + 1))

theorem branches_blk (h : Env U v) (t : Transition) (l : List Transition) (ht : ∀ t' ∈ t :: l, GoodTransition U t') :
    Blk ((t :: l).zipIdx.flatMap (fun ti => outBranch U ti.1 ti.2)) (pBranch U t ++ l.flatMap (fun t => .word c!"else" :: pBranch U t)) := by
  rw [List.zipIdx_cons, List.flatMap_cons]
  exact (outBranch_blk h (ht t (by simp)) 0).app (branches_pos h l (fun t ht' => ht t (List.mem_cons_of_mem _ ht')) 0)

theorem outCase_blk (h : Env U v) {c : Channel} (hc : GoodChannel U c) {e : Str × List Transition} (hi : GoodId U e.1) (hne : e.2 ≠ [])
    (ht : ∀ t ∈ e.2, GoodTransition U t) : Blk (CppText.outCase U v c e) (pSs (stmtsOf (Tree.outCase U v c e))) := by
  obtain ⟨id, ts⟩ := e
  cases ts with
  | nil => exact absurd rfl hne
  | cons t ts =>
    have h1 := ident_W hi.1
    have h2 := hi.2.2
    have h4 := hc.2.2.2.2.2.2.2.2.2
    have b1 := branches_blk h t ts ht
    simp only at h1 h2
    unfold CppText.outCase Tree.outCase
    simp only [stmtsOf, pSs]
    rw [pSt_chain (by intro he; cases he)]
    generalize (t :: ts).zipIdx.flatMap (fun ti => outBranch U ti.1 ti.2) = x at *
    generalize hp : pBranch U t = y at *
    generalize hq : ts.flatMap (fun t => Tok.word c!"else" :: pBranch U t) = z at *
    block h with [stateEnum, localEnumName, Tree.stateE, Tree.endS, h1, h2, h4, b1.run, b1.nl]

theorem outCallback_blk (h : Env U v) {a : AggregateSet} (ha : GoodAggregate U a) :
    Blk (outCallback U v a) (pItem (Tree.outItem U v a)) := by
  have h1 := ident_W ha.1.1
  have h2 := ident_W ha.1.2.1
  have h3 := W_unsigned h2
  have h4 := ha.1.2.2.2.2.2.2.2.2.2
  have h5 := ident_W ha.1.2.2.2.2.1
  have b1 := Blk.flatMap (sortEntries a.states) (f := CppText.outCase U v a.channel)
    (p := fun e => pSs (stmtsOf (Tree.outCase U v a.channel e)))
    fun e he => outCase_blk h ha.1 (ha.2 e ((Exec.mem_sortEntries _ e).1 he)).1 (ha.2 e ((Exec.mem_sortEntries _ e).1 he)).2.1
      (ha.2 e ((Exec.mem_sortEntries _ e).1 he)).2.2
  block h with [outCallback, Tree.outParams, Tree.outItem, Tree.SM, Tree.endS, h1, h2, h3, h4, h5, b1.run, b1.nl]

end Lex

end Cpp

end Spec

end Rtcg
