import Verif.Proofs.CppMainText

/-
The syntax tree of main.cpp can be printed and parsed.
-/

set_option linter.unusedSimpArgs false

namespace Rtcg

namespace Spec

namespace Cpp

namespace Ok

open Tree (stmtsOf argsOf outs)
open Parse
open CppText Templates Rtcg.Cpp Tmpl

variable {U : Unicode} {v : Variant}

/-! ### lists -/

theorem okSs (l : List Stmt) : OkSs (stmtsOf l) ↔ ∀ s ∈ l, OkSt s := by
  induction l with
  | nil => simp [stmtsOf, OkSs]
  | cons s l ih => simp [stmtsOf, OkSs, ih]

theorem okA (l : List Expr) : OkA (argsOf l) ↔ ∀ e ∈ l, OkE e := by
  induction l with
  | nil => simp [argsOf, OkA]
  | cons s l ih => simp [argsOf, OkA, ih]

theorem okT (l : List Expr) : OkT (outs l) ↔ ∀ e ∈ l, OkE e ∧ 4 ≤ lvl e := by
  induction l with
  | nil => simp [outs, OkT]
  | cons s l ih => simp [outs, OkT, ih, and_assoc]

/-! ### names -/

theorem ident_under {w : Str} (h : Ident w) : Ident (w ++ c!"_") := by
  unfold Ident isIdent at *
  simp only [Bool.and_eq_true] at h ⊢
  obtain ⟨⟨h1, h2⟩, h3⟩ := h
  refine ⟨⟨?_, ?_⟩, ?_⟩
  · cases w with
    | nil => simp at h1
    | cons c w => simpa using h1
  · simp only [List.all_append, h2, Bool.true_and]; decide
  · have hk : ∀ k ∈ keywords, k.getLast? ≠ some '_' := by decide
    cases hc : keywords.contains (w ++ c!"_") with
    | false => rfl
    | true => exact absurd (List.getLast?_concat) (hk _ (List.contains_iff_mem.1 hc))

theorem okType_q {c : Bool} {q p : List Str} (hq : OkQ q) (hp : ∀ o ∈ p, o = c!"*" ∨ o = c!"&") : OkType ⟨c, q, p⟩ := ⟨.inr (.inr hq), hp⟩

theorem okType_w {c : Bool} {w : Str} {p : List Str} (hq : w ∈ builtin) (hp : ∀ o ∈ p, o = c!"*" ∨ o = c!"&") : OkType ⟨c, [w], p⟩ :=
  ⟨.inr (.inl ⟨w, hq, rfl⟩), hp⟩

theorem okQ_one {a : Str} (h : Ident a) : OkQ [a] := ⟨by simp, by simp; exact h⟩

theorem okQ_two {a b : Str} (h : Ident a) (h' : Ident b) : OkQ [a, b] := ⟨by simp, by simp; exact ⟨h, h'⟩⟩

theorem okQ_three {a b c : Str} (h : Ident a) (h' : Ident b) (h'' : Ident c) : OkQ [a, b, c] := ⟨by simp, by simp; exact ⟨h, h', h''⟩⟩

/-! ### shorthands -/

theorem call_ok {q : List Str} {l : List Expr} (hq : OkQ q) (hl : ∀ e ∈ l, OkE e) : OkE (Tree.call q l) := by
  refine ⟨hq, rfl, by simp, ?_, ?_⟩
  · exact (okA l).2 hl
  · trivial

theorem mcall_ok {x f : Str} {l : List Expr} (hx : Ident x) (hf : Ident f) (hl : ∀ e ∈ l, OkE e) : OkE (Tree.mcall x f l) := by
  refine ⟨okQ_one hx, rfl, by simp, hf, ?_, ?_⟩
  · exact (okA l).2 hl
  · trivial

theorem nm_ok {w : Str} (h : Ident w) : OkE (Tree.nm w) := okQ_one h

theorem status_ok {w : Str} (h : Ident w) : OkE (Tree.status w) := okQ_three (by unfold Ident; decide) (by unfold Ident; decide) h

/-- Needed of the names of levels -/
structure Env (U : Unicode) (v : Variant) : Prop extends Lex.Env U v where
  outcomes : ∀ o : Outcome, o.val.toNat < 4 → Ident (enumField U o.string)

theorem logged_ok (h : Lex.Env U v) {level : Str} (hl : level = c!"info" ∨ level = c!"error") {e : Expr} {l : List Expr}
    (he : OkE e ∧ 4 ≤ lvl e) (hm : ∀ e ∈ l, OkE e ∧ 4 ≤ lvl e) : OkSt (Tree.logged U v level e l) := by
  have hE : OkE (.name [c!"std", c!"endl"]) ∧ 4 ≤ lvl (.name [c!"std", c!"endl"]) :=
    ⟨okQ_two (by unfold Ident; decide) (by unfold Ident; decide), by decide⟩
  have hm' : ∀ e ∈ l ++ [Expr.name [c!"std", c!"endl"]], OkE e ∧ 4 ≤ lvl e := by
    intro e he
    rcases List.mem_append.1 he with h | h
    · exact hm e h
    · rw [List.mem_singleton] at h; exact h ▸ hE
  have hne : ∀ (l : List Expr) (x : Expr), outs (l ++ [x]) ≠ .nil := by
    intro l x
    cases l <;> (intro hh; cases hh)
  unfold Tree.logged
  split
  · refine call_ok (okQ_one ?_) ?_
    · rcases hl with rfl | rfl
      · rw [h.info]; unfold Ident; decide
      · rw [h.error]; unfold Ident; decide
    · intro e' he'
      rw [List.mem_singleton] at he'
      subst he'
      exact ⟨he.1, he.2, hne _ _, (okT _).2 hm'⟩
  · refine ⟨okQ_two (by unfold Ident; decide) (by unfold Ident; decide), by decide, (by intro hh; cases hh), ?_⟩
    refine (okT _).2 ?_
    intro e' he'
    rcases List.mem_cons.1 he' with rfl | he'
    · exact ⟨trivial, by simp [lvl]⟩
    · rcases List.mem_cons.1 he' with rfl | he'
      · exact he
      · exact hm' e' he'

theorem logged_iff (h : Lex.Env U v) {level : Str} (hl : level = c!"info" ∨ level = c!"error") (e : Expr) (l : List Expr) :
    OkSt (Tree.logged U v level e l) ↔ (OkE e ∧ 4 ≤ lvl e) ∧ ∀ e ∈ l, OkE e ∧ 4 ≤ lvl e := by
  refine ⟨?_, fun hh => logged_ok h hl hh.1 hh.2⟩
  unfold Tree.logged
  split
  · rintro ⟨_, _, _, ⟨⟨h1, h2, _, h3⟩, _⟩, _⟩
    exact ⟨⟨h1, h2⟩, fun e he => (okT _).1 h3 e (by simp [he])⟩
  · rintro ⟨_, _, _, h3⟩
    have := (okT _).1 h3
    exact ⟨this e (by simp), fun e he => this e (by simp [he])⟩

open Lean Parser Tactic in
/-- Items whose names are names -/
macro "oking" h:term "with" "[" ds:simpLemma,* "]" : tactic =>
  `(tactic| (have hI := logged_iff (level := c!"info") $h (.inl rfl)
             have hE := logged_iff (level := c!"error") $h (.inr rfl)
             simp (config := { decide := true, contextual := true }) [$ds,*, hI, hE, OkSs, okSs, okA, okT, OkItem, OkSt, OkE, OkS, OkA, OkT, OkQ, OkType,
    OkTypeName, lvl, Closed, Tree.nm, Tree.status, Tree.call, Tree.mcall, Tree.ty, Tree.void, Tree.auto, Tree.SM, Tree.outcomeTy, argsOf, stmtsOf, or_imp,
    forall_and]))

theorem verdict_ok (h : Env U v) {tests : List Str} (ht : ∀ t ∈ tests, Ident t) : ∀ i ∈ Tree.verdictItems U v tests, OkItem i := by
  have h' := fun t hm => ident_under (ht t hm)
  unfold Ident at ht h'
  unfold Tree.verdictItems
  oking h.toEnv with [ht, h']

theorem state_ok (h : Env U v) {states : List State} (hs : ∀ s ∈ states, GoodId U s.id) :
    ∀ i ∈ Tree.stateItems U states, OkItem i := by
  have h1 := fun s hm => (hs s hm).1
  unfold Ident at h1
  unfold Tree.stateItems
  oking h.toEnv with [Tree.stateE, h1, builtin]

theorem ctorParams_ok {tc : TransitionContext} (hin : ∀ a ∈ tc.in_, GoodAggregate U a) :
    ∀ p ∈ Tree.ctorParams U v tc, OkType p.1 ∧ isIdent p.2 = true := by
  unfold Tree.ctorParams
  split
  · intro p hp
    obtain ⟨a, ha, rfl⟩ := List.mem_map.1 hp
    exact ⟨okType_q (okQ_two (by unfold Ident; decide) (by unfold Ident; decide)) (by simp), (hin a ha).1.2.2.2.2.2.1⟩
  · simp

theorem timerParams_ok : ∀ p ∈ Tree.timerParams v, OkType p.1 ∧ isIdent p.2 = true := by
  unfold Tree.timerParams
  split
  · intro p hp
    rw [List.mem_singleton] at hp
    subst hp
    exact ⟨okType_q (okQ_two (by unfold Ident; decide) (by unfold Ident; decide)) (by simp), by decide⟩
  · simp

theorem acceptedParams_ok : ∀ p ∈ Tree.acceptedParams v, OkType p.1 ∧ isIdent p.2 = true := by
  unfold Tree.acceptedParams
  split
  · intro p hp
    rw [List.mem_singleton] at hp
    subst hp
    exact ⟨okType_q (okQ_three (by unfold Ident; decide) (by unfold Ident; decide) (by unfold Ident; decide)) (by simp), by decide⟩
  · simp

theorem outParams_ok {c : Channel} (hc : GoodChannel U c) : ∀ p ∈ Tree.outParams U c, OkType p.1 ∧ isIdent p.2 = true := by
  unfold Tree.outParams
  intro p hp
  rw [List.mem_singleton] at hp
  subst hp
  exact ⟨okType_q (okQ_one hc.2.1) (by simp), by simp only; decide⟩

theorem fields_ok {tc : TransitionContext} (hin : ∀ a ∈ tc.in_, GoodAggregate U a) : ∀ i ∈ Tree.fields U v tc, OkItem i := by
  unfold Tree.fields
  split
  · intro p hp
    obtain ⟨a, ha, rfl⟩ := List.mem_map.1 hp
    exact ⟨okType_q (okQ_two (by unfold Ident; decide) (by unfold Ident; decide)) (by simp), ident_under (hin a ha).1.2.2.2.2.2.1, by simp⟩
  · simp

theorem fn_ok {t : CType} {q : List Str} {ps : List Param} {b : Option Stmts} (ht : OkType t) (hq : OkQ q)
    (hp : ∀ p ∈ ps, OkType p.1 ∧ isIdent p.2 = true) (hb : ∀ ss, b = some ss → OkSs ss) : OkItem (.fn (some t) q ps b) :=
  ⟨by intro t' h; cases h; exact ht, hq, hp, hb⟩

theorem void_ok : OkType Tree.void := okType_w (by decide) (by simp)

theorem SM_ok {w : Str} (h : Ident w) : OkQ [Tree.SM, w] := okQ_two (by unfold Ident; decide) h

theorem class_ok (h : Env U v) {date name : Str} {m : Stm} {tc : TransitionContext} {ctx : CppConfig.Context} {first : Str}
    (g : GoodMain U date name m tc ctx first) : ∀ i ∈ Tree.classItems U v m tc first, OkItem i := by
  have l : ∀ {w : Str}, Ident w → OkItem (.fn (some Tree.void) [w] (Tree.timerParams v) none) := fun hw =>
    fn_ok void_ok (okQ_one hw) timerParams_ok (by simp)
  intro i hi
  simp only [Tree.classItems, List.mem_append] at hi
  rcases hi with ((((((hi | hi) | hi) | hi) | hi) | hi) | hi) | hi
  · simp only [List.mem_cons, List.not_mem_nil, or_false] at hi
    rcases hi with rfl | rfl | rfl | rfl | rfl
    · exact ⟨by decide, by intro q hq; cases hq; exact okQ_two (by unfold Ident; decide) (by unfold Ident; decide)⟩
    · exact .inl rfl
    · exact ⟨by simp, okQ_one (by unfold Ident; decide), ctorParams_ok g.inSets, by simp⟩
    · exact fn_ok (okType_q (okQ_one (by unfold Ident; decide)) (by simp)) (okQ_one (by unfold Ident; decide)) (by simp) (by simp)
    · exact l (by unfold Ident; decide)
  · split at hi
    · rw [List.mem_singleton] at hi; subst hi; exact l (by unfold Ident; decide)
    · cases hi
  · split at hi
    · rw [List.mem_singleton] at hi; subst hi
      exact fn_ok void_ok (okQ_one (by unfold Ident; decide)) acceptedParams_ok (by simp)
    · cases hi
  · obtain ⟨a, ha, rfl⟩ := List.mem_map.1 hi
    exact fn_ok void_ok (okQ_one (g.outSets a ha).1.1) (outParams_ok (g.outSets a ha).1) (by simp)
  · simp only [List.mem_cons, List.not_mem_nil, or_false] at hi
    rcases hi with rfl | rfl | rfl
    · exact .inr (.inl rfl)
    · exact ⟨okType_q (okQ_one (by unfold Ident; decide)) (by simp), by decide, by simp⟩
    · refine ⟨okType_q (okQ_one (by unfold Ident; decide)) (by simp), by decide, ?_⟩
      intro e he
      cases he
      exact okQ_two (by unfold Ident; decide) g.first.1
  · exact fields_ok g.inSets i hi
  · obtain ⟨s, hs, rfl⟩ := List.mem_map.1 hi
    exact fn_ok void_ok (okQ_one (g.states s hs).1.2.1) (by simp) (by simp)
  · simp only [List.mem_cons, List.not_mem_nil, or_false] at hi
    rcases hi with rfl | rfl | rfl
    · exact fn_ok (okType_w (by decide) (by simp)) (okQ_one (by unfold Ident; decide)) (by simp) (by simp)
    · refine fn_ok void_ok (okQ_one (by unfold Ident; decide)) ?_ (by simp)
      intro p hp
      rw [List.mem_singleton] at hp
      subst hp
      exact ⟨okType_q (okQ_two (by unfold Ident; decide) (by unfold Ident; decide)) (by simp), by decide⟩
    · trivial

/-! ### the functions of the class -/

theorem enterS_ok {id : Str} (h : Ident (stateEntry U id)) : OkSt (Tree.enterS U id) := call_ok (okQ_one h) (by simp)

theorem endS_ok {w : Str} (h : Ident w) : OkSt (Tree.endS w) :=
  call_ok (okQ_one (by unfold Ident; decide)) (by intro e he; rw [List.mem_singleton] at he; subst he; exact status_ok h)

theorem some_ss {l : List Stmt} (h : ∀ s ∈ l, OkSt s) : ∀ ss, some (stmtsOf l) = some ss → OkSs ss := by
  intro ss he
  cases he
  exact (okSs l).2 h

theorem ctor_ok (h : Env U v) {tc : TransitionContext} {first : Str} (hf : GoodId U first) (hin : ∀ a ∈ tc.in_, GoodAggregate U a) :
    OkItem (Tree.ctorItem U v tc first) := by
  refine ⟨by simp, SM_ok (by unfold Ident; decide), ctorParams_ok hin, some_ss ?_⟩
  intro s hs
  rcases List.mem_cons.1 hs with rfl | hs
  · split
    · exact ⟨nm_ok (by unfold Ident; decide), by decide, status_ok (by unfold Ident; decide)⟩
    · exact enterS_ok hf.2.1
  · unfold Tree.installs at hs
    split at hs
    · obtain ⟨a, ha, rfl⟩ := List.mem_map.1 hs
      have := (hin a ha).1.2.2.2.2.2.1
      exact ⟨nm_ok (ident_under this), by simp [Tree.nm, lvl], nm_ok this⟩
    · cases hs

theorem helpers_ok (h : Env U v) : ∀ i ∈ Tree.helperItems U v, OkItem i := by
  unfold Tree.helperItems
  rcases h.v with rfl | rfl <;> oking h.toEnv with [Tree.running, builtin]

theorem timeout_ok (h : Env U v) : OkItem (Tree.timeoutItem U v) := by
  unfold Tree.timeoutItem
  refine fn_ok void_ok (SM_ok (by unfold Ident; decide)) timerParams_ok (some_ss ?_)
  oking h.toEnv with [Tree.running, Tree.endS]

theorem delay_ok (h : Env U v) {first : Str} (hf : GoodId U first) : OkItem (Tree.delayItem U v first) := by
  unfold Tree.delayItem
  have h1 := hf.2.1
  unfold Ident at h1
  refine fn_ok void_ok (SM_ok (by unfold Ident; decide)) timerParams_ok (some_ss ?_)
  oking h.toEnv with [Tree.enterS, h1]

theorem accepted_ok (h : Env U v) {mm : GoMap Str (List Transition)}
    (hm : ∀ e ∈ mm, GoodId U e.1 ∧ e.2 ≠ [] ∧ ∀ t ∈ e.2, GoodTransition U t) : OkItem (Tree.acceptedItem U v mm) := by
  unfold Tree.acceptedItem
  refine fn_ok void_ok (SM_ok (by unfold Ident; decide)) acceptedParams_ok (some_ss ?_)
  intro s hs
  rw [List.mem_singleton] at hs
  subst hs
  refine ⟨nm_ok (by unfold Ident; decide), (okSs _).2 ?_⟩
  intro s hs
  rcases List.mem_append.1 hs with hs | hs
  · obtain ⟨⟨id, ts⟩, he, hs⟩ := List.mem_flatMap.1 hs
    obtain ⟨hi, hne, ht⟩ := hm _ ((Exec.mem_sortEntries _ _).1 he)
    cases ts with
    | nil => exact absurd rfl hne
    | cons t ts =>
      have h1 := hi.1
      have h2 := (ht t (by simp)).2.2.1
      unfold Ident at h1 h2
      revert s
      oking h.toEnv with [Tree.acceptedCase, Tree.stateE, h1, h2]
  · revert s
    oking h.toEnv with [Tree.endS]

theorem decNat_head (n : Nat) (h : 0 < n) : (decNat n).head? ≠ some '0' := by
  induction n using Nat.strongRecOn with
  | _ n ih =>
    unfold decNat at *
    by_cases hn : n < 10
    · rw [Nat.toDigits_of_lt_base hn]
      have : ∀ k < 10, 0 < k → [Nat.digitChar k].head? ≠ some '0' := by decide
      exact this n hn h
    · rw [Nat.toDigits_of_base_le (by decide) (by omega), List.head?_append]
      have := ih (n / 10) (by omega) (by omega)
      cases hd : (Nat.toDigits 10 (n / 10)).head? with
      | none => exact absurd (List.head?_eq_none_iff.1 hd) (decNat_ne_nil _)
      | some c => rw [hd] at this; simpa using this

theorem decNat_num (n : Nat) : isNum (decNat n) = true := by
  have h1 : (decNat n).all digit = true := by
    rw [List.all_eq_true]
    intro c hc
    obtain ⟨h1, h2⟩ := decNat_digits n c hc
    have h1 : 48 ≤ c.toNat := h1
    have h2 : c.toNat ≤ 57 := h2
    simp [digit, h1, h2]
  unfold isNum
  simp only [h1, ne_eq, decNat_ne_nil, not_false_eq_true, decide_true, Bool.and_true, Bool.true_and, Bool.or_eq_true, decide_eq_true_eq]
  by_cases hn : n = 0
  · subst hn; right; decide
  · left; exact decNat_head n (by omega)

theorem value_ok {x : Value} (hx : GoodValue x) : OkE (Tree.valueE x) ∧ 4 ≤ lvl (Tree.valueE x) := by
  cases x with
  | none => exact absurd rfl hx.1
  | int i =>
    simp only [Tree.valueE, Tree.intE]
    split
    · exact ⟨⟨.inr (.inl rfl), decNat_num _, by simp [lvl]⟩, by simp [lvl]⟩
    · exact ⟨decNat_num _, by simp [lvl]⟩
  | enum s => exact ⟨trivial, by simp [Tree.valueE, lvl]⟩

theorem test_ok {x : Value} (hx : GoodValue x) : OkE (Tree.testE x) := by
  unfold Tree.testE
  split
  · exact ⟨.inl rfl, mcall_ok (by unfold Ident; decide) (by unfold Ident; decide) (by simp [OkE]), by simp [Tree.mcall, lvl],
      (by decide : isNum c!"0" = true), by decide⟩
  · refine ⟨.inl rfl, nm_ok (by unfold Ident; decide), by decide, (value_ok hx).1, ?_⟩
    have := (value_ok hx).2
    omega

theorem chain_ok {other : Stmt} (ho : OkSt other) (l : List Transition) (ht : ∀ t ∈ l, GoodTransition U t) : OkSt (Tree.chain U other l) := by
  induction l with
  | nil => exact ho
  | cons t l ih =>
    have hn : Tree.chain U other l ≠ .skip := by
      cases l with
      | nil => intro he; rw [Tree.chain] at he; rw [he] at ho; exact ho
      | cons t l => intro he; cases he
    have ih := ih fun t hm => ht t (List.mem_cons_of_mem _ hm)
    have h1 := test_ok (ht t (by simp)).1
    have h2 := enterS_ok (ht t (by simp)).2.2.1
    rw [Tree.chain]
    generalize Tree.chain U other l = b at *
    cases b <;> first | exact absurd rfl hn | exact ⟨h1, h2, trivial, ih⟩

theorem out_ok (h : Env U v) {a : AggregateSet} (ha : GoodAggregate U a) : OkItem (Tree.outItem U v a) := by
  unfold Tree.outItem
  refine fn_ok void_ok (SM_ok ha.1.1) (outParams_ok ha.1) (some_ss ?_)
  intro s hs
  simp only [List.mem_cons, List.not_mem_nil, or_false] at hs
  rcases hs with rfl | rfl
  · exact ⟨okType_w (by decide) (by simp), by decide, call_ok (okQ_one ha.1.2.2.2.2.1) (by
      intro e he; rw [List.mem_singleton] at he; subst he; exact nm_ok (by unfold Ident; decide))⟩
  · refine ⟨nm_ok (by unfold Ident; decide), (okSs _).2 ?_⟩
    intro s hs
    rcases List.mem_append.1 hs with hs | hs
    · obtain ⟨⟨id, ts⟩, he, hs⟩ := List.mem_flatMap.1 hs
      obtain ⟨hi, hne, ht⟩ := ha.2 _ ((Exec.mem_sortEntries _ _).1 he)
      simp only [Tree.outCase, List.mem_cons, List.not_mem_nil, or_false] at hs
      rcases hs with rfl | rfl | rfl
      · exact ⟨okQ_two (by unfold Ident; decide) hi.1, by simp [Tree.stateE, lvl]⟩
      · refine chain_ok ?_ ts ht
        show OkSs _
        oking h.toEnv with [Tree.endS]
      · trivial
    · revert s
      oking h.toEnv with [Tree.endS]

theorem conv_ok {c : Channel} (hc : GoodChannel U c) {x : Value} (hx : GoodValue x) : OkE (Tree.convE U c x) ∧ 4 ≤ lvl (Tree.convE U c x) :=
  ⟨call_ok (okQ_one hc.2.2.2.1) (by intro e he; rw [List.mem_singleton] at he; subst he; exact (value_ok hx).1), by simp [Tree.convE, Tree.call, lvl]⟩

theorem entry_ok (h : Env U v) {s : State} (hs : GoodState U s) : OkItem (Tree.entryItem U v s) := by
  obtain ⟨hi, hv, ht⟩ := hs
  unfold Tree.entryItem
  refine fn_ok void_ok (SM_ok hi.2.1) (by simp) (some_ss ?_)
  intro x hx
  rcases List.mem_append.1 hx with hx | hx
  · rcases List.mem_append.1 hx with hx | hx
    · have h1 := hi.1
      unfold Ident at h1
      revert x
      oking h.toEnv with [Tree.stateE, h1]
    · obtain ⟨e, he, rfl⟩ := List.mem_map.1 hx
      obtain ⟨h1, h2⟩ := hv e ((Exec.mem_sortEntries _ _).1 he)
      refine mcall_ok (by unfold Ident; decide) h1 ?_
      intro e' he'
      rw [List.mem_singleton] at he'
      subst he'
      exact okQ_three (by unfold Ident; decide) (by unfold Ident; decide) (h.outcomes _ h2)
  · unfold Tree.settleS at hx
    have hw : ∀ {w : Str}, Ident w → OkSt (.expr (.assign (Tree.nm c!"status_") (Tree.status w))) := fun h =>
      ⟨nm_ok (by unfold Ident; decide), by decide, status_ok h⟩
    split at hx
    · rw [List.mem_singleton] at hx; subst hx; exact endS_ok (by unfold Ident; decide)
    · split at hx
      · rcases List.mem_cons.1 hx with rfl | hx
        · exact hw (by unfold Ident; decide)
        · cases hin : s.in_ with
          | none => rw [hin] at hx; cases hx
          | some ct =>
            obtain ⟨c, t⟩ := ct
            rw [hin] at hx
            obtain ⟨ts, hm, rfl, hmt⟩ := Lex.in_mem hin
            have hc := (ht ts hm).1
            have hcv := conv_ok hc ((ht ts hm).2 t hmt).1
            simp only [Tree.sendingS, List.mem_cons, List.not_mem_nil, or_false] at hx
            rcases hx with rfl | rfl
            · exact logged_ok h.toEnv (.inl rfl) ⟨trivial, by simp [lvl]⟩ (by simp [OkE, lvl])
            · unfold Tree.sendS
              split
              · exact mcall_ok (ident_under hc.2.2.2.2.2.1) (by unfold Ident; decide) (by
                  intro e he; rw [List.mem_singleton] at he; subst he; exact hcv.1)
              · refine logged_ok h.toEnv (.inl rfl) ⟨trivial, by simp [lvl]⟩ ?_
                intro e he
                simp only [List.mem_cons, List.not_mem_nil, or_false] at he
                rcases he with rfl | rfl
                · exact hcv
                · exact ⟨trivial, by simp [lvl]⟩
      · rcases List.mem_cons.1 hx with rfl | hx
        · exact hw (by unfold Ident; decide)
        · obtain ⟨ts, hm, hx⟩ := List.mem_flatMap.1 hx
          obtain ⟨t, hmt, rfl⟩ := List.mem_map.1 hx
          unfold Tree.receivingS
          exact logged_ok h.toEnv (.inl rfl) ⟨trivial, by simp [lvl]⟩ (by simp [OkE, lvl])

theorem bodies_ok (h : Env U v) {date name : Str} {m : Stm} {tc : TransitionContext} {ctx : CppConfig.Context} {first : Str}
    (g : GoodMain U date name m tc ctx first) : ∀ i ∈ Tree.bodyItems U v m tc first, OkItem i := by
  intro i hi
  simp only [Tree.bodyItems, List.mem_append] at hi
  rcases hi with (((((hi | hi) | hi) | hi) | hi) | hi) | hi
  · rw [List.mem_singleton] at hi; subst hi; exact ctor_ok h g.first g.inSets
  · exact helpers_ok h i hi
  · rw [List.mem_singleton] at hi; subst hi; exact timeout_ok h
  · split at hi
    · rw [List.mem_singleton] at hi; subst hi; exact delay_ok h g.first
    · cases hi
  · split at hi
    · rw [List.mem_singleton] at hi; subst hi; exact accepted_ok h g.merged
    · cases hi
  · obtain ⟨a, ha, rfl⟩ := List.mem_map.1 hi; exact out_ok h (g.outSets a ha)
  · obtain ⟨s, hs, rfl⟩ := List.mem_map.1 hi; exact entry_ok h (g.states s hs)

/-! ### the function main -/

theorem typeE_ok (t : RsType) : OkType (Tree.typeE t) := by
  unfold Tree.typeE
  cases t.isEnum <;> cases t.isNat <;> cases t.isInt <;> cases t.isReal <;>
    simp only [if_true, if_false, Bool.false_eq_true] <;>
    first
      | exact okType_q (okQ_two (by unfold Ident; decide) (by unfold Ident; decide)) (by simp)
      | exact ⟨.inl rfl, by simp [Tree.ty]⟩
      | exact okType_w (by decide) (by simp)

theorem subscribe_ok {x topic f : Str} (hx : Ident x) (hf : Ident f) : OkSt (Tree.subscribe x topic f) := by
  refine ⟨okType_w (by decide) (by simp), hx, mcall_ok (by unfold Ident; decide) (by unfold Ident; decide) ?_⟩
  intro e he
  simp only [List.mem_cons, List.not_mem_nil, or_false] at he
  rcases he with rfl | rfl | rfl | rfl
  · trivial
  · exact (by decide : isNum c!"10" = true)
  · exact ⟨.inr (.inr rfl), SM_ok hf, by simp [lvl]⟩
  · exact ⟨.inr (.inr rfl), nm_ok (by unfold Ident; decide), by simp [Tree.nm, lvl]⟩

theorem timer_ok {x k f : Str} (hx : Ident x) (hk : Ident k) (hf : Ident f) : OkSt (Tree.timer x k f) := by
  refine ⟨okType_w (by decide) (by simp), hx, mcall_ok (by unfold Ident; decide) (by unfold Ident; decide) ?_⟩
  intro e he
  simp only [List.mem_cons, List.not_mem_nil, or_false] at he
  rcases he with rfl | rfl | rfl
  · exact call_ok (okQ_two (by unfold Ident; decide) (by unfold Ident; decide)) (by
      intro e he; rw [List.mem_singleton] at he; subst he; exact nm_ok hk)
  · exact ⟨.inr (.inr rfl), SM_ok hf, by simp [lvl]⟩
  · exact ⟨.inr (.inr rfl), nm_ok (by unfold Ident; decide), by simp [Tree.nm, lvl]⟩

theorem preInit_ok {name : Str} {tc : TransitionContext} (hin : ∀ a ∈ tc.in_, GoodAggregate U a) : ∀ s ∈ Tree.preInit U v name tc, OkSt s := by
  unfold Tree.preInit
  split
  · intro s hs
    rcases List.mem_append.1 hs with hs | hs
    · simp only [List.mem_cons, List.not_mem_nil, or_false] at hs
      rcases hs with rfl | rfl
      · refine call_ok (okQ_two (by unfold Ident; decide) (by unfold Ident; decide)) ?_
        intro e he
        simp only [List.mem_cons, List.not_mem_nil, or_false] at he
        rcases he with rfl | rfl | rfl
        · exact nm_ok (by unfold Ident; decide)
        · exact nm_ok (by unfold Ident; decide)
        · trivial
      · exact ⟨okType_q (okQ_two (by unfold Ident; decide) (by unfold Ident; decide)) (by simp), by decide⟩
    · obtain ⟨a, ha, rfl⟩ := List.mem_map.1 hs
      have hc := (hin a ha).1
      refine ⟨okType_w (by decide) (by simp), hc.2.2.2.2.2.1, nm_ok (by unfold Ident; decide), rfl, (by intro h; cases h), by decide,
        okType_q (okQ_one hc.2.2.1) (by simp), (okA _).2 ?_, trivial⟩
      intro e he
      simp only [List.mem_cons, List.not_mem_nil, or_false] at he
      rcases he with rfl | rfl
      · trivial
      · exact (by decide : isNum c!"1000" = true)
  · simp

theorem init_ok {tc : TransitionContext} (hout : ∀ a ∈ tc.out, GoodAggregate U a) : ∀ s ∈ Tree.init U v tc, OkSt s := by
  unfold Tree.init
  split
  · intro s hs
    simp only [List.mem_append] at hs
    rcases hs with ((hs | hs) | hs) | hs
    · split at hs
      · rw [List.mem_singleton] at hs; subst hs
        exact subscribe_ok (by unfold Ident; decide) (by unfold Ident; decide)
      · cases hs
    · obtain ⟨a, ha, rfl⟩ := List.mem_map.1 hs
      exact subscribe_ok (hout a ha).1.2.2.2.2.2.2.1 (hout a ha).1.1
    · rw [List.mem_singleton] at hs; subst hs
      exact timer_ok (by unfold Ident; decide) (by unfold Ident; decide) (by unfold Ident; decide)
    · split at hs
      · rw [List.mem_singleton] at hs; subst hs
        exact timer_ok (by unfold Ident; decide) (by unfold Ident; decide) (by unfold Ident; decide)
      · cases hs
  · simp

theorem say_ok (s : Str) : OkSt (Tree.say s) :=
  ⟨okQ_two (by unfold Ident; decide) (by unfold Ident; decide), by decide, (by intro h; cases h), .inl rfl, trivial, by simp [lvl], trivial⟩

theorem readS_ok {x : Str} (h : Ident x) : OkSt (Tree.readS x) :=
  ⟨okQ_two (by unfold Ident; decide) (by unfold Ident; decide), by decide, (by intro h; cases h), .inr rfl, nm_ok h, by simp [Tree.nm, lvl], trivial⟩

theorem choiceIs_ok (w : Str) : OkE (Tree.choiceIs w) :=
  ⟨.inl rfl, nm_ok (by unfold Ident; decide), by decide, trivial, by simp [lvl]⟩

theorem statusIs_ok {w : Str} (h : Ident w) : OkE (Tree.statusIs w) :=
  ⟨.inl rfl, nm_ok (by unfold Ident; decide), by decide, status_ok h, by simp [Tree.status, lvl]⟩

theorem ite_ok {c : Expr} {a b : Stmt} (hc : OkE c) (ha : OkSt a) (hcl : Closed a) (hb : OkSt b) : OkSt (.ite c a b) := by
  cases b <;> first | exact ⟨hc, ha⟩ | exact ⟨hc, ha, hcl, hb⟩

theorem outChoices_ok {date name : Str} {m : Stm} {tc : TransitionContext} {ctx : CppConfig.Context} {first : Str}
    (g : GoodMain U date name m tc ctx first) (l : List AggregateSet) (hl : ∀ a ∈ l, a ∈ tc.out) : OkSt (Tree.outChoices U ctx l) := by
  induction l with
  | nil => exact say_ok _
  | cons a l ih =>
    refine ite_ok (choiceIs_ok _) ?_ trivial (ih fun a ha => hl a (List.mem_cons_of_mem _ ha))
    have ha := hl a (by simp)
    obtain ⟨t, ty, h1, h2, _⟩ := g.types a ha
    have hc := (g.outSets a ha).1
    have hb : Tree.baseOf ctx a.channel.name = some ty := by simp only [Tree.baseOf, h1, Option.bind_some, h2]
    refine (okSs _).2 ?_
    intro s hs
    simp only [List.mem_cons, List.not_mem_nil, or_false] at hs
    rcases hs with rfl | rfl | rfl
    · rw [hb]; exact ⟨typeE_ok ty, by decide⟩
    · exact readS_ok (by unfold Ident; decide)
    · refine mcall_ok (by unfold Ident; decide) hc.1 ?_
      intro e he
      rw [List.mem_singleton] at he
      subst he
      exact call_ok (okQ_one hc.2.2.2.1) (by intro e he; rw [List.mem_singleton] at he; subst he; exact nm_ok (by unfold Ident; decide))

theorem choices_ok {date name : Str} {m : Stm} {tc : TransitionContext} {ctx : CppConfig.Context} {first : Str}
    (g : GoodMain U date name m tc ctx first) : OkSt (Tree.choices U tc ctx) := by
  have cb : ∀ {f : Str}, Ident f → OkSt (.expr (Tree.mcall c!"stm" f [])) := fun hf => mcall_ok (by unfold Ident; decide) hf (by simp)
  have h1 := outChoices_ok g tc.out (fun a ha => ha)
  have an : ∀ {w x : Str}, Ident x → OkE (.and (Tree.choiceIs w) (Tree.statusIs x)) := fun hx =>
    ⟨choiceIs_ok _, by simp [Tree.choiceIs, lvl], statusIs_ok hx, by simp [Tree.statusIs, lvl]⟩
  refine ite_ok (choiceIs_ok _) (cb (by unfold Ident; decide)) trivial ?_
  have h2 : OkSt (Tree.acceptChoice U tc ctx) := by
    unfold Tree.acceptChoice
    split
    · exact ite_ok (an (by unfold Ident; decide)) (cb (by unfold Ident; decide)) trivial h1
    · exact h1
  unfold Tree.readyChoice
  split
  · exact ite_ok (an (by unfold Ident; decide)) (cb (by unfold Ident; decide)) trivial h2
  · exact h2

theorem prompts_ok (tc : TransitionContext) (ctx : CppConfig.Context) : ∀ s ∈ Tree.prompts tc ctx, OkSt s := by
  intro s hs
  simp only [Tree.prompts, List.mem_append] at hs
  rcases hs with (((hs | hs) | hs) | hs) | hs
  · rw [List.mem_singleton] at hs; subst hs; exact say_ok _
  · split at hs
    · split at hs
      · rw [List.mem_singleton] at hs; subst hs
        exact ite_ok (statusIs_ok (by unfold Ident; decide)) (say_ok _) trivial ⟨statusIs_ok (by unfold Ident; decide), say_ok _⟩
      · rw [List.mem_singleton] at hs; subst hs
        exact ⟨statusIs_ok (by unfold Ident; decide), say_ok _⟩
    · cases hs
  · simp only [List.mem_cons, List.not_mem_nil, or_false] at hs
    rcases hs with rfl | rfl <;> exact say_ok _
  · split at hs
    · rw [List.mem_singleton] at hs; subst hs; exact say_ok _
    · obtain ⟨a, _, rfl⟩ := List.mem_map.1 hs; exact say_ok _
  · rw [List.mem_singleton] at hs; subst hs; exact say_ok _

theorem getStatus_ok : OkE Tree.getStatus := mcall_ok (by unfold Ident; decide) (by unfold Ident; decide) (by simp)

theorem mainBody_ok {date name : Str} {m : Stm} {tc : TransitionContext} {ctx : CppConfig.Context} {first : Str}
    (g : GoodMain U date name m tc ctx first) : ∀ s ∈ Tree.mainBody U v tc ctx, OkSt s := by
  unfold Tree.mainBody
  split
  · intro s hs
    rw [List.mem_singleton] at hs; subst hs
    exact call_ok (okQ_two (by unfold Ident; decide) (by unfold Ident; decide)) (by simp)
  · intro s hs
    rcases List.mem_append.1 hs with hs | hs
    · split at hs
      · rw [List.mem_singleton] at hs; subst hs; exact say_ok _
      · cases hs
    · rw [List.mem_singleton] at hs; subst hs
      refine ⟨okType_w (by decide) (by simp), by decide, getStatus_ok,
        call_ok (okQ_three (by unfold Ident; decide) (by unfold Ident; decide) (by unfold Ident; decide)) ?_,
        ⟨nm_ok (by unfold Ident; decide), by decide, getStatus_ok⟩, (okSs _).2 ?_⟩
      · intro e he; rw [List.mem_singleton] at he; subst he; exact nm_ok (by unfold Ident; decide)
      · intro s hs
        rcases List.mem_append.1 hs with hs | hs
        · exact prompts_ok tc ctx s hs
        · simp only [List.mem_cons, List.not_mem_nil, or_false] at hs
          rcases hs with rfl | rfl | rfl
          · exact ⟨okType_q (okQ_two (by unfold Ident; decide) (by unfold Ident; decide)) (by simp), by decide⟩
          · exact readS_ok (by unfold Ident; decide)
          · exact choices_ok g

theorem main_ok (h : Env U v) {date name : Str} {m : Stm} {tc : TransitionContext} {ctx : CppConfig.Context} {first : Str}
    (g : GoodMain U date name m tc ctx first) : OkItem (Tree.mainItem U v name tc ctx) := by
  refine fn_ok (okType_w (by decide) (by simp)) (okQ_one (by unfold Ident; decide)) ?_ (some_ss ?_)
  · unfold Tree.mainParams
    split
    · intro p hp
      simp only [List.mem_cons, List.not_mem_nil, or_false] at hp
      rcases hp with rfl | rfl
      · exact ⟨okType_w (by decide) (by simp), by decide⟩
      · exact ⟨okType_w (by decide) (by simp), by decide⟩
    · simp
  · intro s hs
    simp only [List.mem_append] at hs
    rcases hs with ((((hs | hs) | hs) | hs) | hs) | hs
    · exact preInit_ok g.inSets s hs
    · rw [List.mem_singleton] at hs; subst hs
      refine ⟨okType_q (okQ_one (by unfold Ident; decide)) (by simp), by decide, (okA _).2 ?_⟩
      unfold Tree.ctorArgs
      split
      · intro e he
        obtain ⟨a, ha, rfl⟩ := List.mem_map.1 he
        exact nm_ok (g.inSets a ha).1.2.2.2.2.2.1
      · simp
    · exact init_ok g.outSets s hs
    · rw [List.mem_singleton] at hs; subst hs
      exact logged_ok h.toEnv (.inl rfl) ⟨trivial, by simp [lvl]⟩ (by simp)
    · exact mainBody_ok g s hs
    · simp only [List.mem_cons, List.not_mem_nil, or_false] at hs
      rcases hs with rfl | rfl | rfl | rfl
      · exact ⟨okType_w (by decide) (by simp), by decide, getStatus_ok⟩
      · refine logged_ok h.toEnv (.inl rfl) ⟨trivial, by simp [lvl]⟩ ?_
        intro e he
        simp only [List.mem_cons, List.not_mem_nil, or_false] at he
        rcases he with rfl | rfl
        · exact ⟨nm_ok (by unfold Ident; decide), by simp [Tree.nm, lvl]⟩
        · exact ⟨trivial, by simp [lvl]⟩
      · exact ⟨nm_ok (by unfold Ident; decide), rfl, (by intro h; cases h), by decide, trivial, by decide, trivial, trivial⟩
      · exact call_ok (okQ_three (by unfold Ident; decide) (by unfold Ident; decide) (by unfold Ident; decide)) (by
          intro e he; rw [List.mem_singleton] at he; subst he; exact nm_ok (by unfold Ident; decide))

/-- Everything in main.cpp -/
theorem mainItems_ok (h : Env U v) {date name : Str} {m : Stm} {tc : TransitionContext} {ctx : CppConfig.Context} {first : Str}
    (g : GoodMain U date name m tc ctx first) : ∀ i ∈ Tree.mainItems U v name m tc ctx first, OkItem i := by
  intro i hi
  simp only [Tree.mainItems, List.mem_append] at hi
  rcases hi with ((((hi | hi) | hi) | hi) | hi) | hi
  · unfold Tree.constants at hi
    split at hi
    · simp only [List.mem_cons, List.not_mem_nil, or_false] at hi
      rcases hi with rfl | rfl
      · exact ⟨okType_w (by decide) (by simp), by decide, by intro e he; cases he; exact (by decide : isNum c!"15" = true)⟩
      · exact ⟨okType_w (by decide) (by simp), by decide, by intro e he; cases he; exact (by decide : isNum c!"3" = true)⟩
    · cases hi
  · exact verdict_ok h g.tests i hi
  · exact state_ok h (fun s hs => (g.states s hs).1) i hi
  · exact class_ok h g i hi
  · exact bodies_ok h g i hi
  · rw [List.mem_singleton] at hi; subst hi; exact main_ok h g

/-- main.cpp is read back as its syntax tree -/
theorem parse_main (h : Env U v) {date name : Str} {m : Stm} {tc : TransitionContext} {ctx : CppConfig.Context} {first : Str}
    (g : GoodMain U date name m tc ctx first) :
    parse (lex (mainText U v date name m tc ctx first)) = some (Tree.mainItems U v name m tc ctx first) := by
  rw [Lex.lex_main h.toEnv h.outcomes g, parse_print (mainItems_ok h g)]

end Ok

end Cpp

end Spec

end Rtcg
