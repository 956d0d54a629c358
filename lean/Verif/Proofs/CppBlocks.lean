import Verif.Proofs.CppLex

/-
The tokens of the parts of main.cpp.
-/

set_option linter.unusedSimpArgs false

namespace Rtcg

namespace Spec

namespace Cpp

namespace Lex

open Tree (stmtsOf argsOf)
open Parse (pSs pSt pItem pItems pE pA pParams pType)

/-! ### blocks -/

/-- A text that starts on a new line, or is empty, and whose tokens are `p` -/
structure Blk (s : Str) (p : List Tok) : Prop where
  nl : NL s
  run : ∀ rest, NL rest → L .idle (s ++ rest) = p ++ L .idle rest

theorem NL.head {s : Str} (h : s.head? = some '\n') : NL s := by
  cases s with
  | nil => cases h
  | cons c s => cases h; exact .cons s

theorem NL.app {a b : Str} (ha : NL a) (hb : NL b) : NL (a ++ b) := by
  rcases ha with rfl | ⟨r, rfl⟩
  · exact hb
  · exact .cons _

theorem Blk.nil : Blk [] [] := ⟨.inl rfl, fun _ _ => rfl⟩

theorem Blk.app {a b : Str} {p q : List Tok} (ha : Blk a p) (hb : Blk b q) : Blk (a ++ b) (p ++ q) := by
  refine ⟨ha.nl.app hb.nl, fun rest hr => ?_⟩
  rw [List.append_assoc, ha.run _ (hb.nl.app hr), hb.run _ hr, List.append_assoc]

theorem Blk.cast {a : Str} {p q : List Tok} (h : Blk a p) (he : p = q) : Blk a q := he ▸ h

theorem Blk.ite {c : Prop} [Decidable c] {a b : Str} {p q : List Tok} (ha : c → Blk a p) (hb : ¬ c → Blk b q) :
    Blk (if c then a else b) (if c then p else q) := by
  by_cases h : c
  · rw [if_pos h, if_pos h]; exact ha h
  · rw [if_neg h, if_neg h]; exact hb h

theorem Blk.flatMap {α : Type} {f : α → Str} {p : α → List Tok} (l : List α) (h : ∀ x ∈ l, Blk (f x) (p x)) :
    Blk (l.flatMap f) (l.flatMap p) := by
  induction l with
  | nil => exact Blk.nil
  | cons x l ih =>
    rw [List.flatMap_cons, List.flatMap_cons]
    exact (h x (by simp)).app (ih fun y hy => h y (List.mem_cons_of_mem _ hy))

/-! ### printing lists -/

theorem pSs_app (a b : List Stmt) : pSs (stmtsOf (a ++ b)) = pSs (stmtsOf a) ++ pSs (stmtsOf b) := by
  induction a with
  | nil => rfl
  | cons s a ih => simp only [List.cons_append, stmtsOf, pSs, ih, List.append_assoc]

theorem pSs_map {α : Type} (f : α → Stmt) (l : List α) : pSs (stmtsOf (l.map f)) = l.flatMap (fun x => pSt (f x)) := by
  induction l with
  | nil => rfl
  | cons s a ih => simp only [List.map_cons, stmtsOf, pSs, ih, List.flatMap_cons]

theorem pSs_flatMap {α : Type} (f : α → List Stmt) (l : List α) : pSs (stmtsOf (l.flatMap f)) = l.flatMap (fun x => pSs (stmtsOf (f x))) := by
  induction l with
  | nil => rfl
  | cons s a ih => simp only [List.flatMap_cons, pSs_app, ih]

theorem pItems_app (a b : List Item) : pItems (a ++ b) = pItems a ++ pItems b := List.flatMap_append

theorem pItems_map {α : Type} (f : α → Item) (l : List α) : pItems (l.map f) = l.flatMap (fun x => pItem (f x)) := by
  simp only [pItems, List.flatMap_map]

theorem pItems_nil : pItems [] = [] := rfl

theorem pItems_cons (i : Item) (l : List Item) : pItems (i :: l) = pItem i ++ pItems l := rfl

/-- A function up to its body -/
def pHead (t : Option CType) (q : List Str) (ps : List Param) : List Tok :=
  Parse.pTypeOpt t ++ (Parse.pq q ++ .op c!"(" :: (pParams ps ++ [.op c!")", .op c!"{"]))

theorem pItem_fn (t : Option CType) (q : List Str) (ps : List Param) (b : Stmts) :
    pItem (.fn t q ps (some b)) = pHead t q ps ++ (pSs b ++ [.op c!"}"]) := by
  simp only [pItem, pHead, Parse.pBody, List.append_assoc, List.cons_append, List.nil_append]

/-! ### hypotheses about the context -/

/-- What is needed of the case functions, and the variants there are -/
structure Env (U : Unicode) (v : Variant) : Prop where
  info : U.strToUpper c!"info" = c!"INFO"
  error : U.strToUpper c!"error" = c!"ERROR"
  v : v = .animate ∨ v = .ros

open Lean Parser Tactic in
/-- A block, given the blocks in it -/
macro "block" h:term "with" "[" ds:simpLemma,* "]" : tactic =>
  `(tactic| (have hInfo := Env.info $h; have hError := Env.error $h; refine Or.elim (Env.v $h) (fun hv => ?_) (fun hv => ?_)) <;>
    (subst hv; exact ⟨NL.head rfl, fun rest hr => by lexing [$ds,*, hr, hInfo, hError, pItems_cons, pItems_nil, pItems_app, pItems_map,
      pSs_map, pSs_app, pSs_flatMap, NL.app, NL.cons]⟩))

variable {U : Unicode} {v : Variant}

open CppText Templates Rtcg.Cpp

/-! ### class Verdict -/

theorem setter_blk (h : Env U v) {t : Str} (ht : W t) :
    Blk (setter U v t) (pItem (.fn (some Tree.void) [c!"Verdict", t] [(Tree.outcomeTy, c!"new_val")]
    (some (stmtsOf [
      .ite (.eq c!"==" (Tree.nm (t ++ c!"_")) (Tree.nm c!"new_val")) .ret .skip,
      Tree.logged U v c!"info" (.str (c!"Test " ++ t ++ c!" is now ")) [Tree.nm c!"new_val", .str c!"; was ", Tree.nm (t ++ c!"_"), .str c!"."],
      .expr (.assign (Tree.nm (t ++ c!"_")) (Tree.nm c!"new_val"))])))) := by
  have hp := ht.plain
  block h with [setter, Tree.outcomeTy, ht, hp]

theorem setterDecl_blk (h : Env U v) {t : Str} (ht : W t) :
    Blk (setterDecl t) (pItem (.fn (some Tree.void) [t] [(Tree.outcomeTy, c!"new_val")] none)) := by
  have hl := plain_line ht.plain
  block h with [setterDecl, Tree.outcomeTy, ht, hl]

theorem outcomeField_blk (h : Env U v) {t : Str} (ht : W t) :
    Blk (outcomeField t) (pItem (.var Tree.outcomeTy (t ++ c!"_") (some (.name [c!"rtcg", c!"Outcome", c!"UNSET"])))) := by
  block h with [outcomeField, Tree.outcomeTy, ht]

theorem dumpLine_blk (h : Env U v) {t : Str} (ht : W t) :
    Blk (dumpLine U v t) (pSt (Tree.logged U v c!"info" (.str (c!"  " ++ t ++ c!" = ")) [Tree.nm (t ++ c!"_")])) := by
  have hp := ht.plain
  block h with [dumpLine, ht, hp]

theorem verdict_blk (h : Env U v) {tests : List Str} (ht : ∀ t ∈ tests, W t) :
    Blk (verdict U v tests) (pItems (Tree.verdictItems U v tests)) := by
  have b1 := Blk.flatMap tests fun t hm => setterDecl_blk h (ht t hm)
  have b2 := Blk.flatMap tests fun t hm => outcomeField_blk h (ht t hm)
  have b3 := Blk.flatMap tests fun t hm => dumpLine_blk h (ht t hm)
  have b4 := Blk.flatMap tests fun t hm => setter_blk h (ht t hm)
  block h with [verdict, Tree.verdictItems, b1.run, b2.run, b3.run, b4.run, b1.nl, b2.nl, b3.nl, b4.nl]

/-! ### the states -/

/-- The line of a state in the enumeration -/
def stField (U : Unicode) (s : State) : Str := c!"\n  " ++ enumField U s.id ++ c!","

/-- Its case in the function that says its name -/
def stCase (U : Unicode) (s : State) : Str := c!"\n    case " ++ stateEnum U s.id ++ c!":\n      return \"" ++ s.id ++ c!"\";"

theorem stateMeta_blk (h : Env U v) {states : List State} (hs : ∀ s ∈ states, GoodId U s.id) :
    Blk (stateMeta U states) (pItems (Tree.stateItems U states)) := by
  have b1 : Blk (states.flatMap (stField U)) (states.flatMap fun s => [.word (enumField U s.id), .op c!","]) :=
    Blk.flatMap states fun s hm => by
      have hw := ident_W (hs s hm).1
      block h with [stField, hw]
  have b2 : Blk (states.flatMap (stCase U)) (states.flatMap fun s => pSs (stmtsOf [.case (Tree.stateE U s.id), .retVal (.str s.id)])) :=
    Blk.flatMap states fun s hm => by
      have hw := ident_W (hs s hm).1
      have hp := (hs s hm).2.2
      block h with [stCase, stateEnum, localEnumName, Tree.stateE, hw, hp]
  have e1 : (fun s : State => c!"\n  " ++ enumField U s.id ++ c!",") = stField U := rfl
  have e2 : (fun s : State => c!"\n    case " ++ stateEnum U s.id ++ c!":\n      return \"" ++ s.id ++ c!"\";") = stCase U := rfl
  rw [stateMeta, e1, e2]
  block h with [Tree.stateItems, Parse.pMembers, List.flatMap_map, b1.run, b2.run, b1.nl, b2.nl]

/-! ### class StateMachine -/

theorem commas_pos (l : List Str) (k : Nat) :
    (l.zipIdx (k + 1)).flatMap (fun si => (if si.2 = 0 then [] else c!", ") ++ si.1) = l.flatMap (fun x => c!", " ++ x) := by
  induction l generalizing k with
  | nil => rfl
  | cons x l ih =>
    rw [List.zipIdx_cons, List.flatMap_cons, List.flatMap_cons, ih, if_neg (by simp)]

theorem commas_cons (x : Str) (l : List Str) : commas (x :: l) = x ++ l.flatMap (fun x => c!", " ++ x) := by
  unfold commas
  rw [List.zipIdx_cons, List.flatMap_cons, commas_pos]
  rfl

/-- What the parameters of the constructor look like in the text -/
theorem params_run (l : List Str) (hl : ∀ x ∈ l, W x) (rest : Str) :
    L (.op '(') (commas (l.map (fun x => c!"ros::Publisher " ++ x)) ++ ')' :: rest) =
      .op c!"(" :: (pParams (l.map (fun x => (Tree.publisherTy, x))) ++ L .idle (')' :: rest)) := by
  cases l with
  | nil => exact L_op_stop _ (by decide) (by decide)
  | cons x l =>
    have hx := hl x (by simp)
    have hl' : ∀ y ∈ l, W y := fun y hy => hl y (List.mem_cons_of_mem _ hy)
    clear hl
    have tl : ∀ x, L (.word x) ((l.map (fun x => c!"ros::Publisher " ++ x)).flatMap (fun x => c!", " ++ x) ++ ')' :: rest) =
        .word x :: (l.flatMap (fun x => .op c!"," :: Parse.pParam (Tree.publisherTy, x)) ++ L .idle (')' :: rest)) := by
      clear hx
      induction l with
      | nil => intro x; exact L_word_stop _ _ (by decide)
      | cons y l ih =>
        intro x
        have hy := hl' y (by simp)
        have ih := ih (fun y hy => hl' y (List.mem_cons_of_mem _ hy)) y
        simp only [List.map_cons, List.flatMap_cons, List.append_assoc, List.cons_append, List.nil_append] at ih ⊢
        lexing [hy, ih, Tree.publisherTy]
    have pp : ∀ x (l : List Str), pParams ((x :: l).map (fun x => (Tree.publisherTy, x))) =
        Parse.pParam (Tree.publisherTy, x) ++ l.flatMap (fun x => .op c!"," :: Parse.pParam (Tree.publisherTy, x)) := by
      intro x l
      induction l generalizing x with
      | nil => simp [pParams]
      | cons y l ih =>
        have := ih y
        simp only [List.map_cons, pParams, List.flatMap_cons, List.append_assoc, List.cons_append] at this ⊢
        rw [this]
    rw [pp, List.map_cons, commas_cons]
    have := tl x
    simp only [List.append_assoc, List.cons_append, List.nil_append] at this
    lexing [hx, this, Tree.publisherTy]

/-- What the names of things separated by commas look like -/
theorem names_run (l : List Str) (hl : ∀ x ∈ l, W x) (rest : Str) :
    L (.op '{') (commas l ++ '}' :: rest) = .op c!"{" :: (pA (argsOf (l.map Tree.nm)) ++ L .idle ('}' :: rest)) := by
  cases l with
  | nil => exact L_op_stop _ (by decide) (by decide)
  | cons x l =>
    have hx := hl x (by simp)
    have hl' : ∀ y ∈ l, W y := fun y hy => hl y (List.mem_cons_of_mem _ hy)
    clear hl
    have tl : ∀ x, L (.word x) (l.flatMap (fun x => c!", " ++ x) ++ '}' :: rest) =
        .word x :: (l.flatMap (fun x => [.op c!",", .word x]) ++ L .idle ('}' :: rest)) := by
      clear hx
      induction l with
      | nil => intro x; exact L_word_stop _ _ (by decide)
      | cons y l ih =>
        intro x
        have hy := hl' y (by simp)
        have ih := ih (fun y hy => hl' y (List.mem_cons_of_mem _ hy)) y
        simp only [List.flatMap_cons, List.append_assoc, List.cons_append, List.nil_append] at ih ⊢
        lexing [hy, ih]
    have pp : ∀ x (l : List Str), pA (argsOf ((x :: l).map Tree.nm)) = .word x :: l.flatMap (fun x => [.op c!",", .word x]) := by
      intro x l
      induction l generalizing x with
      | nil => rfl
      | cons y l ih =>
        have := ih y
        simp only [List.map_cons, argsOf, pA, List.flatMap_cons, List.append_assoc, List.cons_append] at this ⊢
        rw [this]
        rfl
    rw [pp, commas_cons]
    have := tl x
    simp only [List.append_assoc, List.cons_append, List.nil_append] at this
    lexing [hx, this]

/-- The parameters of the constructor -/
theorem ctorParams_run {tc : TransitionContext} (hin : ∀ a ∈ tc.in_, GoodAggregate U a) (rest : Str) :
    L (.op '(') (ctorParams U v tc ++ ')' :: rest) = .op c!"(" :: (pParams (Tree.ctorParams U v tc) ++ L .idle (')' :: rest)) := by
  unfold ctorParams Tree.ctorParams
  by_cases hv : v = Variant.ros
  · rw [if_pos hv, if_pos hv]
    have := params_run (tc.in_.map fun a => publisherName U a.channel)
      (by intro x hx; obtain ⟨a, ha, rfl⟩ := List.mem_map.1 hx; exact ident_W (hin a ha).1.2.2.2.2.2.1) rest
    rw [List.map_map, List.map_map] at this
    exact this
  · rw [if_neg hv, if_neg hv]
    exact L_op_stop _ (by decide) (by decide)

theorem ctorArgs_run {tc : TransitionContext} (hin : ∀ a ∈ tc.in_, GoodAggregate U a) (rest : Str) :
    L (.op '{') (ctorArgs U v tc ++ '}' :: rest) = .op c!"{" :: (pA (argsOf (Tree.ctorArgs U v tc)) ++ L .idle ('}' :: rest)) := by
  unfold ctorArgs Tree.ctorArgs
  by_cases hv : v = Variant.ros
  · rw [if_pos hv, if_pos hv]
    have := names_run (tc.in_.map fun a => publisherName U a.channel)
      (by intro x hx; obtain ⟨a, ha, rfl⟩ := List.mem_map.1 hx; exact ident_W (hin a ha).1.2.2.2.2.2.1) rest
    rw [List.map_map] at this
    exact this
  · rw [if_neg hv, if_neg hv]
    exact L_op_stop _ (by decide) (by decide)

theorem W_unsigned {w : Str} (h : W w) : ([w] = [c!"unsigned int"]) = False := by
  refine eq_false ?_
  intro he
  injection he with he
  subst he
  exact absurd h.2 (by decide)

/-- The declaration of a callback for an output -/
def cbDecl (U : Unicode) (a : AggregateSet) : Str :=
  c!"\n  void " ++ callbackName a.channel.name ++ c!"(const " ++ channelMsgType U a.channel.name ++ c!" msg);"

/-- The field for a publisher -/
def pubField (U : Unicode) (a : AggregateSet) : Str := c!"\n  ros::Publisher " ++ publisherName U a.channel ++ c!"_;"

/-- The declaration of an entry function -/
def entryDecl (U : Unicode) (s : State) : Str := c!"\n  void " ++ stateEntry U s.id ++ c!"();"

theorem cbDecl_blk (h : Env U v) {a : AggregateSet} (ha : GoodChannel U a.channel) :
    Blk (cbDecl U a) (pItem (.fn (some Tree.void) [callbackName a.channel.name] (Tree.outParams U a.channel) none)) := by
  have h1 := ident_W ha.1
  have h2 := ident_W ha.2.1
  have h3 := W_unsigned h2
  block h with [cbDecl, Tree.outParams, h1, h2, h3]

theorem pubField_blk (h : Env U v) {a : AggregateSet} (ha : GoodChannel U a.channel) :
    Blk (pubField U a) (pItem (.var Tree.publisherTy (publisherName U a.channel ++ c!"_") none)) := by
  have h1 := ident_W ha.2.2.2.2.2.1
  block h with [pubField, Tree.publisherTy, h1]

theorem entryDecl_blk (h : Env U v) {s : State} (hs : GoodId U s.id) :
    Blk (entryDecl U s) (pItem (.fn (some Tree.void) [stateEntry U s.id] [] none)) := by
  have h1 := ident_W hs.2.1
  block h with [entryDecl, h1]

theorem stmFields_blk (h : Env U v) {tc : TransitionContext} (hin : ∀ a ∈ tc.in_, GoodAggregate U a) :
    Blk (CppText.stmFields U v tc) (pItems (Tree.fields U v tc)) := by
  have b1 : Blk (tc.in_.flatMap (pubField U)) _ := Blk.flatMap tc.in_ fun a ha => pubField_blk h (hin a ha).1
  have e : (fun a : AggregateSet => c!"\n  ros::Publisher " ++ publisherName U a.channel ++ c!"_;") = pubField U := rfl
  unfold CppText.stmFields Tree.fields
  rcases h.v with rfl | rfl
  · exact Blk.nil
  · rw [if_pos rfl, if_pos rfl, e]
    exact ⟨NL.head rfl, fun rest hr => by lexing [hr, pItems_map, b1.run, b1.nl, NL.app]⟩

set_option maxHeartbeats 2000000 in
theorem stmClass_run (h : Env U v) {m : Stm} {tc : TransitionContext} {first : Str} (hs : ∀ s ∈ m.states, GoodId U s.id)
    (hf : GoodId U first) (hin : ∀ a ∈ tc.in_, GoodAggregate U a) (hout : ∀ a ∈ tc.out, GoodAggregate U a) (rest : Str) :
    L .idle (stmClass U v m tc first ++ rest) = pItems (Tree.classItems U v m tc first) ++ L .idle rest := by
  have b1 : Blk (tc.out.flatMap (cbDecl U)) _ := Blk.flatMap tc.out fun a ha => cbDecl_blk h (hout a ha).1
  have b2 : Blk (m.states.flatMap (entryDecl U)) _ := Blk.flatMap m.states fun s hm => entryDecl_blk h (hs s hm)
  have b3 := stmFields_blk h hin
  have e1 : (fun a : AggregateSet => c!"\n  void " ++ callbackName a.channel.name ++ c!"(const " ++ channelMsgType U a.channel.name ++
    c!" msg);") = cbDecl U := rfl
  have e2 : (fun s : State => c!"\n  void " ++ stateEntry U s.id ++ c!"();") = entryDecl U := rfl
  have hw := ident_W hf.1
  have hc := ctorParams_run (v := v) hin
  rw [stmClass, e1, e2]
  cases h1 : tc.firstStateHasIn <;> cases h2 : tc.hasIn <;> rcases h.v with rfl | rfl <;>
    lexing [hw, hc, h1, h2, stateEnum, localEnumName, Tree.classItems, Tree.SM, Tree.stateE, timerArgs, Tree.timerParams, acceptedArgs,
      Tree.acceptedParams, pItems_cons, pItems_nil, pItems_app, pItems_map, NL.app, NL.cons, b1.run, b1.nl, b2.run, b2.nl, b3.run, b3.nl,
      Bool.false_eq_true]

end Lex

end Cpp

end Spec

end Rtcg
