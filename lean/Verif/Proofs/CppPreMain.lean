import Verif.Proofs.CppPreWords
import Verif.Proofs.CppConvertText

/-
Defined words are in main.cpp and convert.h only where types are.
-/

set_option linter.unusedSimpArgs false

namespace Rtcg

namespace Spec

namespace Cpp

namespace Pre

open Parse Tree Lex Subst
open CppText Templates Rtcg.Cpp Tmpl

variable {U : Unicode} {v : Variant} {τ : Str → Option CType} {K : Str → Prop}

theorem kSs (l : List Stmt) : KSs τ K (stmtsOf l) ↔ ∀ s ∈ l, KSt τ K s := by
  induction l with
  | nil => simp [stmtsOf, KSs]
  | cons s l ih => simp [stmtsOf, KSs, ih]

theorem kA (l : List Expr) : KA τ K (argsOf l) ↔ ∀ e ∈ l, KE τ K e := by
  induction l with
  | nil => simp [argsOf, KA]
  | cons s l ih => simp [argsOf, KA, ih]

theorem kTl (l : List Expr) : KTl τ K (outs l) ↔ ∀ e ∈ l, KE τ K e := by
  induction l with
  | nil => simp [outs, KTl]
  | cons s l ih => simp [outs, KTl, ih]

/-- What main.cpp uses: safe words, words that are given, and the types of messages -/
structure Words (U : Unicode) (v : Variant) (τ : Str → Option CType) (K : Str → Prop) (m : Stm) (tc : TransitionContext)
    (first : Str) : Prop where
  env : Lex.Env U v
  safe : ∀ w, safe w = true → K w
  tests : ∀ t ∈ GoSet.values m.tests, K t
  states : ∀ s ∈ m.states, K (enumField U s.id)
  verdicts : ∀ s ∈ m.states, ∀ e ∈ s.verdict, K e.1 ∧ K (enumField U e.2.string)
  first : K (enumField U first)
  merged : ∀ e ∈ tc.inMerged, K (enumField U e.1)
  sets : ∀ a ∈ tc.out, ∀ e ∈ a.states, K (enumField U e.1)
  outs : ∀ a ∈ tc.out, ∃ s, τ (channelMsgType U a.channel.name) = some s
  ins : ∀ a ∈ tc.in_, ∃ s, τ (channelValueType U a.channel.name) = some s

theorem logged_k (h : Lex.Env U v) (hs : ∀ w, safe w = true → K w) {level : Str} (hl : level = c!"info" ∨ level = c!"error") (e : Expr)
    (l : List Expr) : KSt τ K (Tree.logged U v level e l) ↔ KE τ K e ∧ ∀ e ∈ l, KE τ K e := by
  have h1 : K c!"std" := hs _ (by decide)
  have h2 : K c!"endl" := hs _ (by decide)
  have h3 : K c!"cerr" := hs _ (by decide)
  have h4 : K (c!"ROS_" ++ U.strToUpper level ++ c!"_STREAM") := by
    rcases hl with rfl | rfl
    · rw [h.info]; exact hs _ (by decide)
    · rw [h.error]; exact hs _ (by decide)
  unfold Tree.logged
  split
  · simp only [KSt, Tree.call, KE, KS, argsOf, KA, kTl, List.mem_append, List.mem_singleton, or_imp, forall_and, forall_eq, List.mem_cons,
      List.not_mem_nil, or_false, h1, h2, h4, and_true, true_and]
  · simp only [KSt, KE, kTl, List.mem_append, List.mem_singleton, or_imp, forall_and, forall_eq, List.mem_cons,
      List.not_mem_nil, or_false, h1, h2, h3, and_true, true_and]

open Lean Parser Tactic in
macro "keeping" h:term "with" "[" ds:simpLemma,* "]" : tactic =>
  `(tactic| (have hI := logged_k (τ := τ) (K := K) (level := c!"info") (Words.env $h) (Words.safe $h) (.inl rfl)
             have hE := logged_k (τ := τ) (K := K) (level := c!"error") (Words.env $h) (Words.safe $h) (.inr rfl)
             have hK := Words.safe $h
             simp (config := { decide := true, contextual := true }) [$ds,*, hI, hE, hK, KSs, kSs, kA, kTl, KItem, KSt, KE, KS, KA, KTl, KT, TM,
    Tree.nm, Tree.status, Tree.call, Tree.mcall, Tree.ty, Tree.void, Tree.auto, Tree.SM, Tree.outcomeTy, argsOf, stmtsOf, or_imp,
    forall_and]))

variable {m : Stm} {tc : TransitionContext} {first : Str}

theorem verdict_k (h : Words U v τ K m tc first) : ∀ i ∈ Tree.verdictItems U v (GoSet.values m.tests), KItem τ K i := by
  have h1 := h.tests
  have h2 : ∀ t : Str, K (t ++ c!"_") := fun t => h.safe _ (safe_last ⟨by decide, by decide, by decide⟩)
  unfold Tree.verdictItems
  keeping h with [h1, h2]

theorem state_k (h : Words U v τ K m tc first) : ∀ i ∈ Tree.stateItems U m.states, KItem τ K i := by
  have h1 := h.states
  unfold Tree.stateItems
  keeping h with [Tree.stateE, h1]

theorem k_entry (h : Words U v τ K m tc first) (id : Str) : K (stateEntry U id) := h.safe _ (safe_lower (c := 'e') (by decide))

theorem k_to (h : Words U v τ K m tc first) (id : Str) : K (convertTo U id) := h.safe _ (safe_lower (c := 't') (by decide))

theorem k_from (h : Words U v τ K m tc first) (id : Str) : K (convertFrom U id) := h.safe _ (safe_lower (c := 'f') (by decide))

theorem safe_app {w : Str} {c : Char} (u : Str) (h : c ≠ 'l' ∧ c ≠ 'g' ∧ c ≠ 'D') : safe (w ++ (u ++ [c])) = true := by
  rw [← List.append_assoc]
  exact safe_last h

theorem k_callback (h : Words U v τ K m tc first) (id : Str) : K (callbackName id) := h.safe _ (safe_app c!"Callbac" (c := 'k') (by decide))

theorem k_pub (h : Words U v τ K m tc first) (c : Channel) : K (publisherName U c) := h.safe _ (safe_app c!"_pu" (c := 'b') (by decide))

theorem k_sub (h : Words U v τ K m tc first) (c : Channel) : K (subscriberName U c) := h.safe _ (safe_app c!"_su" (c := 'b') (by decide))

theorem k_under (h : Words U v τ K m tc first) (w : Str) : K (w ++ c!"_") := h.safe _ (safe_last ⟨by decide, by decide, by decide⟩)

theorem k_num (h : Words U v τ K m tc first) (n : Nat) : K (decNat n) := h.safe _ (safe_num n)

theorem tm_out (h : Words U v τ K m tc first) {a : AggregateSet} (ha : a ∈ tc.out) (b : Bool) :
    TM τ K ⟨b, [channelMsgType U a.channel.name], []⟩ := by
  obtain ⟨s, hs⟩ := h.outs a ha
  exact .inr ⟨_, s, rfl, rfl, hs⟩

theorem tm_in (h : Words U v τ K m tc first) {a : AggregateSet} (ha : a ∈ tc.in_) (b : Bool) :
    TM τ K ⟨b, [channelValueType U a.channel.name], []⟩ := by
  obtain ⟨s, hs⟩ := h.ins a ha
  exact .inr ⟨_, s, rfl, rfl, hs⟩

theorem outParams_k (h : Words U v τ K m tc first) {a : AggregateSet} (ha : a ∈ tc.out) :
    ∀ p ∈ Tree.outParams U a.channel, TM τ K p.1 ∧ K p.2 := by
  intro p hp
  rw [Tree.outParams, List.mem_singleton] at hp
  subst hp
  exact ⟨tm_out h ha _, h.safe _ (by simp only; decide)⟩

theorem ctorParams_k (h : Words U v τ K m tc first) : ∀ p ∈ Tree.ctorParams U v tc, TM τ K p.1 ∧ K p.2 := by
  have h1 : K c!"ros" := h.safe _ (by decide)
  have h2 : K c!"Publisher" := h.safe _ (by decide)
  unfold Tree.ctorParams
  split
  · refine List.forall_mem_map.2 fun a _ => ⟨.inl ?_, k_pub h _⟩
    intro w hw
    simp only [Tree.publisherTy, Tree.ty, List.mem_cons, List.not_mem_nil, or_false] at hw
    rcases hw with rfl | rfl
    · exact h1
    · exact h2
  · simp

set_option maxHeartbeats 4000000 in
theorem class_k (h : Words U v τ K m tc first) : ∀ i ∈ Tree.classItems U v m tc first, KItem τ K i := by
  have h1 := k_entry h
  have h2 := k_callback h
  have h3 := k_pub h
  have h4 := k_under h
  have h5 := h.first
  have ho : ∀ a ∈ tc.out, KItem τ K (.fn (some Tree.void) [callbackName a.channel.name] (Tree.outParams U a.channel) none) := by
    intro a ha
    refine ⟨?_, ?_, outParams_k h ha, by simp⟩
    · keeping h with [List.append_nil]
    · keeping h with [h2]
  have hctor : KItem τ K (.fn none [Tree.SM] (Tree.ctorParams U v tc) none) := by
    refine ⟨by simp, ?_, ctorParams_k h, by simp⟩
    keeping h with [List.append_nil]
  unfold Tree.classItems
  generalize Tree.ctorParams U v tc = ps at hctor
  rcases h.env.v with rfl | rfl <;> cases tc.firstStateHasIn <;> cases tc.hasIn <;>
    simp only [List.forall_mem_append, List.forall_mem_map, if_true, if_false, Bool.false_eq_true] <;>
    refine ⟨⟨⟨⟨⟨⟨⟨List.forall_mem_cons.2 ⟨?_, List.forall_mem_cons.2 ⟨?_, List.forall_mem_cons.2 ⟨hctor, ?_⟩⟩⟩, ?_⟩, ?_⟩, ho⟩, ?_⟩, ?_⟩, ?_⟩, ?_⟩ <;>
    keeping h with [ Tree.timerParams, Tree.acceptedParams, Tree.fields, Tree.publisherTy, Tree.stateE, h1, h3, h4, h5]

theorem enterS_k (h : Words U v τ K m tc first) (id : Str) : KSt τ K (Tree.enterS U id) := by
  have h1 := k_entry h
  keeping h with [Tree.enterS, h1]

theorem endS_k (h : Words U v τ K m tc first) {w : Str} (hw : safe w = true) : KSt τ K (Tree.endS w) := by
  keeping h with [Tree.endS, hw]

theorem value_k (h : Words U v τ K m tc first) (x : Value) : KE τ K (Tree.valueE x) := by
  have h1 := k_num h
  cases x with
  | none => keeping h with [Tree.valueE]
  | int i =>
    show KE τ K (Tree.intE i)
    unfold Tree.intE
    by_cases hi : i.toInt < 0
    · rw [if_pos hi]; exact h1 _
    · rw [if_neg hi]; exact h1 _
  | enum s => keeping h with [Tree.valueE]

theorem test_k (h : Words U v τ K m tc first) (x : Value) : KE τ K (Tree.testE x) := by
  have h1 := value_k h x
  unfold Tree.testE
  split <;> keeping h with [h1]

theorem conv_k (h : Words U v τ K m tc first) (c : Channel) (x : Value) : KE τ K (Tree.convE U c x) := by
  have h1 := value_k h x
  have h2 := k_to h
  unfold Tree.convE
  keeping h with [h1, h2]

theorem chain_k (h : Words U v τ K m tc first) {other : Stmt} (ho : KSt τ K other) (l : List Transition) : KSt τ K (Tree.chain U other l) := by
  induction l with
  | nil => exact ho
  | cons t l ih => exact ⟨test_k h _, enterS_k h _, ih⟩

theorem out_k (h : Words U v τ K m tc first) {a : AggregateSet} (ha : a ∈ tc.out) : KItem τ K (Tree.outItem U v a) := by
  have h1 := k_callback h
  have h2 := k_from h
  refine ⟨?_, ?_, outParams_k h ha, ?_⟩
  · keeping h with [List.append_nil]
  · keeping h with [h1]
  · intro ss he
    cases he
    rw [kSs]
    have hc : ∀ e ∈ sortEntries a.states, ∀ s ∈ Tree.outCase U v a.channel e, KSt τ K s := by
      intro e he s hs
      have hk := h.sets a ha e ((Exec.mem_sortEntries _ _).1 he)
      simp only [Tree.outCase, List.mem_cons, List.not_mem_nil, or_false] at hs
      rcases hs with rfl | rfl | rfl
      · keeping h with [Tree.stateE, hk]
      · refine chain_k h ?_ _
        keeping h with [Tree.endS]
      · trivial
    have hc' : ∀ s ∈ (sortEntries a.states).flatMap (Tree.outCase U v a.channel), KSt τ K s := by
      intro s hs
      obtain ⟨e, he, hs⟩ := List.mem_flatMap.1 hs
      exact hc e he s hs
    generalize (sortEntries a.states).flatMap (Tree.outCase U v a.channel) = cases at hc'
    simp only [List.forall_mem_cons]
    refine ⟨?_, ?_, by simp⟩
    · keeping h with [h2]
    · refine ⟨?_, (kSs _).2 (List.forall_mem_append.2 ⟨hc', ?_⟩)⟩
      · keeping h with [List.append_nil]
      · keeping h with [Tree.endS]

theorem accepted_k (h : Words U v τ K m tc first) : KItem τ K (Tree.acceptedItem U v tc.inMerged) := by
  have h1 := k_entry h
  have h2 : K [] := h.safe _ (by decide)
  have hc' : ∀ s ∈ (sortEntries tc.inMerged).flatMap (Tree.acceptedCase U v), KSt τ K s := by
    intro s hs
    obtain ⟨e, he, hs⟩ := List.mem_flatMap.1 hs
    have hk := h.merged e ((Exec.mem_sortEntries _ _).1 he)
    have hn : K (e.2.head?.elim [] (fun t => stateEntry U t.next)) := by
      cases e.2.head? with
      | none => exact h2
      | some t => exact h1 _
    simp only [Tree.acceptedCase, List.mem_cons, List.not_mem_nil, or_false] at hs
    rcases hs with rfl | rfl | rfl | rfl
    · keeping h with [Tree.stateE, hk]
    · keeping h with [List.append_nil]
    · generalize e.2.head?.elim [] (fun t => stateEntry U t.next) = x at hn
      keeping h with [hn]
    · trivial
  unfold Tree.acceptedItem
  generalize (sortEntries tc.inMerged).flatMap (Tree.acceptedCase U v) = cases at hc'
  rcases h.env.v with rfl | rfl <;> keeping h with [Tree.acceptedParams, Tree.endS, hc']

set_option maxHeartbeats 4000000 in
theorem entry_k (h : Words U v τ K m tc first) {s : State} (hs : s ∈ m.states) : KItem τ K (Tree.entryItem U v s) := by
  have h1 := k_entry h
  have h2 := h.states s hs
  have h3 := k_pub h
  have h4 := k_under h
  have h5 := conv_k h
  have hv : ∀ e ∈ sortEntries s.verdict, KSt τ K (.expr (Tree.mcall c!"verdict_" e.1 [Tree.outcomeE U e.2])) := by
    intro e he
    obtain ⟨k1, k2⟩ := h.verdicts s hs e ((Exec.mem_sortEntries _ _).1 he)
    keeping h with [Tree.outcomeE, k1, k2]
  have hset : ∀ x ∈ Tree.settleS U v s, KSt τ K x := by
    unfold Tree.settleS
    split
    · keeping h with [Tree.endS]
    · split
      · cases s.in_ with
        | none => keeping h with [List.append_nil]
        | some ct =>
          obtain ⟨c, t⟩ := ct
          rcases h.env.v with rfl | rfl <;> keeping h with [Tree.sendingS, Tree.sendS, h3, h4, h5]
      · intro x hx
        rcases List.mem_cons.1 hx with rfl | hx
        · keeping h with [List.append_nil]
        obtain ⟨ts, _, hx⟩ := List.mem_flatMap.1 hx
        obtain ⟨t, _, rfl⟩ := List.mem_map.1 hx
        keeping h with [Tree.receivingS]
  unfold Tree.entryItem
  refine ⟨?_, ?_, by simp, ?_⟩
  · keeping h with [List.append_nil]
  · keeping h with [h1]
  · intro ss he
    cases he
    rw [kSs]
    refine List.forall_mem_append.2 ⟨List.forall_mem_append.2 ⟨?_, List.forall_mem_map.2 hv⟩, hset⟩
    keeping h with [Tree.stateE, h2]

set_option maxHeartbeats 4000000 in
theorem bodies_k (h : Words U v τ K m tc first) : ∀ i ∈ Tree.bodyItems U v m tc first, KItem τ K i := by
  have h1 := k_entry h
  have h3 := k_pub h
  have h4 := k_under h
  intro i hi
  simp only [Tree.bodyItems, List.mem_append] at hi
  rcases hi with (((((hi | hi) | hi) | hi) | hi) | hi) | hi
  · rw [List.mem_singleton] at hi; subst hi
    refine ⟨by simp, ?_, ctorParams_k h, ?_⟩
    · keeping h with [List.append_nil]
    · intro ss he
      cases he
      rcases h.env.v with rfl | rfl <;> cases tc.firstStateHasIn <;>
        keeping h with [Tree.installs, Tree.publisherTy, Tree.enterS, h1, h3, h4]
  · revert i
    unfold Tree.helperItems
    rcases h.env.v with rfl | rfl <;> keeping h with [Tree.running]
  · rw [List.mem_singleton] at hi; subst hi
    unfold Tree.timeoutItem
    rcases h.env.v with rfl | rfl <;> keeping h with [Tree.running, Tree.endS, Tree.timerParams]
  · split at hi
    · rw [List.mem_singleton] at hi; subst hi
      unfold Tree.delayItem
      rcases h.env.v with rfl | rfl <;> keeping h with [Tree.enterS, Tree.timerParams, h1]
    · cases hi
  · split at hi
    · rw [List.mem_singleton] at hi; subst hi; exact accepted_k h
    · cases hi
  · obtain ⟨a, ha, rfl⟩ := List.mem_map.1 hi; exact out_k h ha
  · obtain ⟨s, hs, rfl⟩ := List.mem_map.1 hi; exact entry_k h hs

/-! ### the function main -/

theorem typeE_k (h : Words U v τ K m tc first) (t : RsType) : KT K (Tree.typeE t) := by
  have hu : K c!"unsigned int" := h.safe _ (by decide)
  unfold Tree.typeE
  cases t.isEnum <;> cases t.isNat <;> cases t.isInt <;> cases t.isReal <;>
    keeping h with [List.append_nil]

theorem say_k (h : Words U v τ K m tc first) (s : Str) : KSt τ K (Tree.say s) := by keeping h with [Tree.say]

theorem outChoices_k (h : Words U v τ K m tc first) (ctx : CppConfig.Context) (l : List AggregateSet) : KSt τ K (Tree.outChoices U ctx l) := by
  have h1 := k_callback h
  have h2 := k_to h
  induction l with
  | nil => exact say_k h _
  | cons a l ih =>
    refine ⟨?_, ?_, ih⟩
    · keeping h with [Tree.choiceIs]
    · have ht : KT K ((Tree.baseOf ctx a.channel.name).elim (Tree.ty []) Tree.typeE) := by
        cases Tree.baseOf ctx a.channel.name with
        | none => intro w hw; cases hw
        | some t => exact typeE_k h t
      unfold Tree.outChoice
      generalize (Tree.baseOf ctx a.channel.name).elim (Tree.ty []) Tree.typeE = t at ht
      refine ⟨⟨ht, h.safe _ (by decide)⟩, ?_⟩
      keeping h with [Tree.readS, h1, h2]

theorem choices_k (h : Words U v τ K m tc first) (ctx : CppConfig.Context) : KSt τ K (Tree.choices U tc ctx) := by
  have h1 := outChoices_k h ctx tc.out
  unfold Tree.choices Tree.readyChoice Tree.acceptChoice
  generalize Tree.outChoices U ctx tc.out = o at h1
  cases tc.firstStateHasIn <;> cases tc.hasIn <;> keeping h with [Tree.choiceIs, Tree.statusIs, h1]

theorem prompts_k (h : Words U v τ K m tc first) (ctx : CppConfig.Context) : ∀ s ∈ Tree.prompts tc ctx, KSt τ K s := by
  have hs := say_k h
  intro s hi
  simp only [Tree.prompts, List.mem_append] at hi
  rcases hi with (((hi | hi) | hi) | hi) | hi
  · rw [List.mem_singleton] at hi; subst hi; exact hs _
  · have hq : ∀ w, Cpp.Pre.safe w = true → KE τ K (Tree.statusIs w) := by
      intro w hw
      keeping h with [Tree.statusIs, hw]
    split at hi
    · split at hi
      · rw [List.mem_singleton] at hi; subst hi
        exact ⟨hq _ (by decide), hs _, hq _ (by decide), hs _, trivial⟩
      · rw [List.mem_singleton] at hi; subst hi
        exact ⟨hq _ (by decide), hs _, trivial⟩
    · cases hi
  · simp only [List.mem_cons, List.not_mem_nil, or_false] at hi
    rcases hi with rfl | rfl <;> exact hs _
  · split at hi
    · rw [List.mem_singleton] at hi; subst hi; exact hs _
    · obtain ⟨a, _, rfl⟩ := List.mem_map.1 hi; exact hs _
  · rw [List.mem_singleton] at hi; subst hi; exact hs _

theorem mainBody_k (h : Words U v τ K m tc first) (ctx : CppConfig.Context) : ∀ s ∈ Tree.mainBody U v tc ctx, KSt τ K s := by
  unfold Tree.mainBody
  split
  · keeping h with [List.append_nil]
  · refine List.forall_mem_append.2 ⟨?_, ?_⟩
    · have := say_k h c!"[!] Test is waiting for the SUT to initialise before sending an input.\n"
      split
      · simpa using this
      · simp
    · have h1 := prompts_k h ctx
      have h2 := choices_k h ctx
      unfold Tree.animateLoop
      generalize Tree.prompts tc ctx = ps at h1
      generalize Tree.choices U tc ctx = cs at h2
      keeping h with [h1, h2, Tree.getStatus, Tree.running, Tree.readS]

theorem preInit_k (h : Words U v τ K m tc first) (name : Str) : ∀ s ∈ Tree.preInit U v name tc, KSt τ K s := by
  have h3 := k_pub h
  unfold Tree.preInit
  split
  · refine List.forall_mem_append.2 ⟨?_, List.forall_mem_map.2 ?_⟩
    · keeping h with [List.append_nil]
    · intro a ha
      refine ⟨?_, h3 _, ?_, ?_, tm_in h ha _, ?_, trivial⟩
      · keeping h with [List.append_nil]
      · keeping h with [List.append_nil]
      · exact h.safe _ (by decide)
      · keeping h with [List.append_nil]
  · simp

theorem init_k (h : Words U v τ K m tc first) : ∀ s ∈ Tree.init U v tc, KSt τ K s := by
  have h1 := k_callback h
  have h3 := k_sub h
  unfold Tree.init
  split
  · cases tc.hasIn <;> cases tc.firstStateHasIn <;>
      simp only [List.forall_mem_append, List.forall_mem_map, if_true, if_false, Bool.false_eq_true] <;> refine ⟨⟨⟨?_, ?_⟩, ?_⟩, ?_⟩ <;>
      keeping h with [Tree.subscribe, Tree.timer, Tree.method, Tree.stmE, h1, h3]
  · simp

theorem main_k (h : Words U v τ K m tc first) (name : Str) (ctx : CppConfig.Context) : KItem τ K (Tree.mainItem U v name tc ctx) := by
  have h3 := k_pub h
  refine ⟨?_, ?_, ?_, ?_⟩
  · keeping h with [List.append_nil]
  · keeping h with [List.append_nil]
  · rcases h.env.v with rfl | rfl <;> keeping h with [Tree.mainParams]
  · intro ss he
    cases he
    rw [kSs]
    refine List.forall_mem_append.2 ⟨List.forall_mem_append.2 ⟨List.forall_mem_append.2 ⟨List.forall_mem_append.2 ⟨List.forall_mem_append.2
      ⟨preInit_k h name, ?_⟩, init_k h⟩, ?_⟩, mainBody_k h ctx⟩, ?_⟩
    · rcases h.env.v with rfl | rfl <;> keeping h with [Tree.ctorArgs, h3]
    · keeping h with [List.append_nil]
    · keeping h with [Tree.getStatus]

/-- main.cpp -/
theorem mainItems_k (h : Words U v τ K m tc first) (name : Str) (ctx : CppConfig.Context) :
    ∀ i ∈ Tree.mainItems U v name m tc ctx first, KItem τ K i := by
  unfold Tree.mainItems
  refine List.forall_mem_append.2 ⟨List.forall_mem_append.2 ⟨List.forall_mem_append.2 ⟨List.forall_mem_append.2 ⟨List.forall_mem_append.2
      ⟨?_, verdict_k h⟩, state_k h⟩, class_k h⟩, bodies_k h⟩, ?_⟩
  · rcases h.env.v with rfl | rfl <;> keeping h with [Tree.constants]
  · intro i hi
    rw [List.mem_singleton] at hi; subst hi
    exact main_k h name ctx

/-- convert.h -/
theorem convertItems_k (h : Words U v τ K m tc first) {ctx : CppConfig.Context} (hb : ∀ e ∈ ctx.channelTypes, ∃ t, e.2.base = some t)
    (hm : ∀ e ∈ ctx.channelTypes, (∃ s, τ (channelMsgType U e.1) = some s) ∧ ∃ s, τ (channelValueType U e.1) = some s) :
    ∀ i ∈ Tree.convertItems U v ctx, KItem τ K i := by
  have h1 := k_to h
  have h2 := k_from h
  have hty : ∀ e ∈ ctx.channelTypes, ∀ b, KT K { Tree.baseTy e.2 with const := b } := by
    intro e he b
    obtain ⟨t, ht⟩ := hb e he
    have : Tree.baseTy e.2 = Tree.typeE t := by unfold Tree.baseTy; rw [ht]; rfl
    intro w hw
    rw [this] at hw
    exact typeE_k h t w hw
  unfold Tree.convertItems
  refine List.forall_mem_append.2 ⟨List.forall_mem_map.2 ?_, List.forall_mem_map.2 ?_⟩
  · intro e he
    rw [Exec.mem_sortEntries] at he
    obtain ⟨⟨s1, hs1⟩, s2, hs2⟩ := hm e he
    refine ⟨?_, ?_, ?_, ?_⟩
    · rintro t ⟨rfl⟩; exact .inl (hty e he _)
    · keeping h with [h2]
    · intro p hp
      rw [List.mem_singleton] at hp
      subst hp
      exact ⟨.inr ⟨_, s1, rfl, rfl, hs1⟩, h.safe _ (by simp only; decide)⟩
    · intro ss hss
      split at hss
      · cases hss
      · cases hss
        unfold Tree.fromStmts
        rw [kSs]
        split
        · split <;> keeping h with [List.append_nil]
        · keeping h with [List.append_nil]
  · intro e he
    rw [Exec.mem_sortEntries] at he
    obtain ⟨⟨s1, hs1⟩, s2, hs2⟩ := hm e he
    refine ⟨?_, ?_, ?_, ?_⟩
    · rintro t ⟨rfl⟩; exact .inr ⟨_, s2, rfl, rfl, hs2⟩
    · keeping h with [h1]
    · intro p hp
      rw [List.mem_singleton] at hp
      subst hp
      exact ⟨.inl (hty e he _), h.safe _ (by simp only; decide)⟩
    · intro ss hss
      split at hss
      · cases hss
      · cases hss
        unfold Tree.toStmts
        rw [kSs]
        split
        · split <;> keeping h with [List.append_nil]
        · keeping h with [List.append_nil]

end Pre

end Cpp

end Spec

end Rtcg
