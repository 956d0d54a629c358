import Verif.Proofs.CppPrelude
import Verif.Model.Harness
import Mathlib.Data.List.Basic

/-
What the generated program declares, and how its names are looked up.
-/

namespace Rtcg

namespace Spec

namespace Cpp

namespace Sem

open Templates Rtcg.Cpp Tmpl Tree

/-! ### lookups in parts of programs -/

theorem fn_append (A B : Prog) (q : List Str) : Prog.fn (A ++ B) q = (Prog.fn A q).or (Prog.fn B q) := by
  unfold Prog.fn; rw [List.findSome?_append]

theorem cls_append (A B : Prog) (q : List Str) : Prog.cls (A ++ B) q = (Prog.cls A q).or (Prog.cls B q) := by
  unfold Prog.cls; rw [List.findSome?_append]

theorem var_append (A B : Prog) (q : List Str) : Prog.var (A ++ B) q = (Prog.var A q).or (Prog.var B q) := by
  unfold Prog.var; rw [List.findSome?_append]

theorem isEnum_append (A B : Prog) (q : List Str) : Prog.isEnum (A ++ B) q = (Prog.isEnum A q || Prog.isEnum B q) := by
  unfold Prog.isEnum; rw [List.any_append]

theorem ownFields_append (A B : Prog) (q : List Str) : Prog.ownFields (A ++ B) q = Prog.ownFields A q ++ Prog.ownFields B q := by
  unfold Prog.ownFields; rw [List.filterMap_append]

theorem filterMap_of {α β : Type} (f : α → Option β) (g : α → β) (l : List α) (h : ∀ a, f a = some (g a)) : l.filterMap f = l.map g := by
  induction l with
  | nil => rfl
  | cons a l ih => rw [List.filterMap_cons, h a, List.map_cons, ih]

/-- The functions of a program -/
def fns (P : Prog) : List (List Str × List Param × Stmts) :=
  P.filterMap fun
    | .fn q ps b => some (q, ps, b)
    | _ => none

theorem fns_append (A B : Prog) : fns (A ++ B) = fns A ++ fns B := List.filterMap_append ..

theorem fn_eq (P : Prog) (q : List Str) : Prog.fn P q = ((fns P).find? (fun f => f.1 = q)).map (·.2) := by
  unfold Prog.fn fns
  induction P with
  | nil => rfl
  | cons f P ih =>
    rw [List.findSome?_cons]
    cases f with
    | fn q' ps b =>
      by_cases h : q' = q
      · simp [h]
      · simpa [h] using ih
    | _ => simpa using ih

theorem fn_none {P : Prog} {q : List Str} (h : ∀ f ∈ fns P, f.1 ≠ q) : Prog.fn P q = none := by
  rw [fn_eq, Option.map_eq_none_iff, List.find?_eq_none]
  intro f hf
  simpa using h f hf

theorem fn_some {P : Prog} {q : List Str} {d : List Param × Stmts} (h : (q, d) ∈ fns P) (hu : ∀ f ∈ fns P, f.1 = q → f.2 = d) :
    Prog.fn P q = some d := by
  rw [fn_eq]
  cases hf : (fns P).find? (fun f => f.1 = q) with
  | none =>
    rw [List.find?_eq_none] at hf
    exact absurd (decide_eq_true rfl) (hf _ h)
  | some f =>
    have h1 := List.find?_some hf
    rw [Option.map_some, hu f (List.mem_of_find?_eq_some hf) (by simpa using h1)]

/-! ### the facts -/

theorem facts_append (sc : Scope) (a b : List Item) : facts sc (a ++ b) = facts sc a ++ facts (a.foldl Item.after sc) b := by
  induction a generalizing sc with
  | nil => rfl
  | cons i a ih => rw [List.cons_append, facts, facts, ih, List.foldl_cons, List.append_assoc]

theorem facts_map {α : Type} (sc : Scope) (l : List α) (f : α → Item) (h : ∀ a ∈ l, (f a).after sc = sc) :
    facts sc (l.map f) = l.flatMap (fun a => (f a).facts sc) ∧ (l.map f).foldl Item.after sc = sc := by
  induction l with
  | nil => exact ⟨rfl, rfl⟩
  | cons a l ih =>
    obtain ⟨h1, h2⟩ := ih (fun b hb => h b (List.mem_cons_of_mem _ hb))
    have ha := h a (List.mem_cons_self ..)
    constructor
    · rw [List.map_cons, facts, ha, h1, List.flatMap_cons]
    · rw [List.map_cons, List.foldl_cons, ha, h2]

theorem facts_map1 {α : Type} (sc : Scope) (l : List α) (f : α → Item) (g : α → Fact) (h : ∀ a ∈ l, (f a).after sc = sc)
    (hg : ∀ a ∈ l, (f a).facts sc = [g a]) : facts sc (l.map f) = l.map g ∧ (l.map f).foldl Item.after sc = sc := by
  obtain ⟨h1, h2⟩ := facts_map sc l f h
  refine ⟨?_, h2⟩
  rw [h1, List.map_eq_flatMap]
  exact List.flatMap_congr hg

/-- The functions of the prelude -/
def rtcgProg : Prog := facts [] rtcgHItems ++ facts [] rtcgCppItems

theorem rtcgProg_eq : rtcgProg =
    [.enum [c!"rtcg", c!"Outcome"] outcomeNames, .enum [c!"rtcg", c!"Status"] statusNames, .cls [c!"rtcg", c!"TestCase"] none,
     .field [c!"rtcg", c!"TestCase"] (ty [c!"Status"]) c!"status_" (some (.name [c!"Status", c!"WAIT_START"])),
     .fn [c!"rtcg", c!"outstr"] [(ty [c!"rtcg", c!"Outcome"], c!"o")] outstrBody,
     .fn [c!"operator<<"] [(ostream, c!"stm"), (ty [c!"rtcg", c!"Outcome"], c!"o")] (shows [c!"rtcg", c!"outstr"]),
     .fn [c!"rtcg", c!"status", c!"explain"] [(ty [c!"rtcg", c!"Status"], c!"s")] explainBody,
     .fn [c!"operator<<"] [(ostream, c!"stm"), (ty [c!"rtcg", c!"Status"], c!"o")] (shows [c!"rtcg", c!"status", c!"explain"]),
     .fn [c!"rtcg", c!"status", c!"isRunning"] [(ty [c!"rtcg", c!"Status"], c!"s")] isRunningBody,
     .fn [c!"rtcg", c!"status", c!"exitCode"] [(ty [c!"rtcg", c!"Status"], c!"s")] exitCodeBody,
     .fn [c!"rtcg", c!"TestCase", c!"getStatus"] [] (stmtsOf [.retVal (nm c!"status_")])] := by
  rfl

/-- The body of an item that is a function -/
def bodyOf : Item → Stmts
  | .fn _ _ _ (some b) => b
  | _ => .nil

def paramsOf : Item → List Param
  | .fn _ _ ps _ => ps
  | _ => []

/-- The functions of the class StateMachine: the last part of the name, parameters and body -/
def smFns (U : Unicode) (v : Variant) (m : Stm) (tc : TransitionContext) (first : Str) : List (Str × Item) :=
  [(SM, ctorItem U v tc first)] ++ [c!"getVerdict", c!"stateName", c!"end"].zip (helperItems U v) ++ [(c!"timeoutCallback", timeoutItem U v)] ++
  (if tc.firstStateHasIn then [(c!"initialDelayCallback", delayItem U v first)] else []) ++
  (if tc.hasIn then [(c!"inputAcceptedCallback", acceptedItem U v tc.inMerged)] else []) ++
  tc.out.map (fun a => (callbackName a.channel.name, outItem U v a)) ++ m.states.map (fun s => (stateEntry U s.id, entryItem U v s))

def verdictFns (U : Unicode) (v : Variant) (tests : List Str) : List Fact :=
  [.fn [c!"Verdict", c!"dump"] [] (stmtsOf (logged U v c!"info" (.str c!"Final outcomes: ") [] ::
      tests.map (fun t => logged U v c!"info" (.str (c!"  " ++ t ++ c!" = ")) [nm (t ++ c!"_")])))] ++
  tests.map (fun t => .fn [c!"Verdict", t] [(outcomeTy, c!"new_val")]
    (stmtsOf [
      .ite (.eq c!"==" (nm (t ++ c!"_")) (nm c!"new_val")) .ret .skip,
      logged U v c!"info" (.str (c!"Test " ++ t ++ c!" is now ")) [nm c!"new_val", .str c!"; was ", nm (t ++ c!"_"), .str c!"."],
      .expr (.assign (nm (t ++ c!"_")) (nm c!"new_val"))]))

def verdictFields (tests : List Str) : List Fact :=
  tests.map (fun t => .field [c!"Verdict"] outcomeTy (t ++ c!"_") (some (.name [c!"rtcg", c!"Outcome", c!"UNSET"])))

def smFields (U : Unicode) (v : Variant) (tc : TransitionContext) (first : Str) : List Fact :=
  [.field [SM] (ty [c!"Verdict"]) c!"verdict_" none, .field [SM] (ty [c!"State"]) c!"state_" (some (stateE U first))] ++
  (if v = Variant.ros then tc.in_.map (fun a => .field [SM] publisherTy (publisherName U a.channel ++ c!"_") none) else [])

def constFacts (v : Variant) : List Fact :=
  if v = Variant.ros then
    [.var [c!"TIMEOUT_SEC"] ⟨true, [c!"int"], []⟩ (some (.num c!"15")), .var [c!"INPUT_DELAY_SEC"] ⟨true, [c!"int"], []⟩ (some (.num c!"3"))]
  else []

/-- `state::name` -/
def stateNameBody (U : Unicode) (m : Stm) : Stmts :=
  stmtsOf [.switch (nm c!"s") (stmtsOf (m.states.flatMap (fun s => [.case (stateE U s.id), .retVal (.str s.id)]))), .retVal (.str c!"???")]

def mainFacts (U : Unicode) (v : Variant) (name : Str) (m : Stm) (tc : TransitionContext) (ctx : CppConfig.Context) (first : Str) : Prog :=
  constFacts v ++ ([.cls [c!"Verdict"] none] ++ verdictFields (GoSet.values m.tests) ++ verdictFns U v (GoSet.values m.tests)) ++
  [.enum [c!"State"] (m.states.map (fun s => enumField U s.id)), .fn [c!"state", c!"name"] [(ty [c!"State"], c!"s")] (stateNameBody U m)] ++
  ([.cls [SM] (some [c!"rtcg", c!"TestCase"])] ++ smFields U v tc first) ++
  (smFns U v m tc first).map (fun f => .fn [SM, f.1] (paramsOf f.2) (bodyOf f.2)) ++
  [.fn [c!"main"] (mainParams v) (bodyOf (mainItem U v name tc ctx))]

theorem facts_verdict (U : Unicode) (v : Variant) (tests : List Str) :
    facts [] (verdictItems U v tests) = [.cls [c!"Verdict"] none] ++ verdictFields tests ++ verdictFns U v tests ∧
    (verdictItems U v tests).foldl Item.after [] = [] := by
  have e1 := facts_map [(true, c!"Verdict")] tests (fun t => Item.fn (some void) [t] [(outcomeTy, c!"new_val")] none) (fun _ _ => rfl)
  have e2 := facts_map1 [(true, c!"Verdict")] tests
    (fun t => Item.var outcomeTy (t ++ c!"_") (some (.name [c!"rtcg", c!"Outcome", c!"UNSET"]))) _ (fun _ _ => rfl) (fun _ _ => rfl)
  have e3 := facts_map1 [] tests (fun t => Item.fn (some void) [c!"Verdict", t] [(outcomeTy, c!"new_val")]
    (some (stmtsOf [
      .ite (.eq c!"==" (nm (t ++ c!"_")) (nm c!"new_val")) .ret .skip,
      logged U v c!"info" (.str (c!"Test " ++ t ++ c!" is now ")) [nm c!"new_val", .str c!"; was ", nm (t ++ c!"_"), .str c!"."],
      .expr (.assign (nm (t ++ c!"_")) (nm c!"new_val"))]))) _ (fun _ _ => rfl) (fun _ _ => rfl)
  unfold verdictItems
  constructor
  · simp only [facts_append, facts, List.foldl_append, List.foldl_cons, List.foldl_nil, Item.after, List.nil_append, e1, e2, e3,
      List.dropLast_singleton, Item.facts, List.append_nil, Scope.path, List.map_nil]
    simp [verdictFields, verdictFns, Scope.inClass, Scope.path]
  · simp only [List.foldl_append, List.foldl_cons, List.foldl_nil, Item.after, List.nil_append, e1.2, e2.2, e3.2, List.dropLast_singleton]

theorem facts_class (U : Unicode) (v : Variant) (m : Stm) (tc : TransitionContext) (first : Str) :
    facts [] (classItems U v m tc first) = [.cls [SM] (some [c!"rtcg", c!"TestCase"])] ++ smFields U v tc first ∧
    (classItems U v m tc first).foldl Item.after [] = [] := by
  have e1 := facts_map [(true, SM)] tc.out (fun a => Item.fn (some void) [callbackName a.channel.name] (outParams U a.channel) none)
    (fun _ _ => rfl)
  have e2 := facts_map [(true, SM)] m.states (fun s => Item.fn (some void) [stateEntry U s.id] [] none) (fun _ _ => rfl)
  have e3 := facts_map [(true, SM)] tc.in_ (fun a => Item.var publisherTy (publisherName U a.channel ++ c!"_") none) (fun _ _ => rfl)
  have e4 : ∀ (b : Bool) (i : Item), i.after [(true, SM)] = [(true, SM)] → i.facts [(true, SM)] = [] →
      facts [(true, SM)] (if b = true then [i] else []) = [] ∧ (if b = true then [i] else []).foldl Item.after [(true, SM)] = [(true, SM)] := by
    intro b i h1 h2
    cases b
    · exact ⟨rfl, rfl⟩
    · exact ⟨by simp [facts, h2], by simp [h1]⟩
  have e5 := e4 tc.firstStateHasIn (.fn (some void) [c!"initialDelayCallback"] (timerParams v) none) rfl rfl
  have e6 := e4 tc.hasIn (.fn (some void) [c!"inputAcceptedCallback"] (acceptedParams v) none) rfl rfl
  have e7 : facts [(true, SM)] (fields U v tc) =
      (if v = Variant.ros then tc.in_.map (fun a => Fact.field [SM] publisherTy (publisherName U a.channel ++ c!"_") none) else []) ∧
      (fields U v tc).foldl Item.after [(true, SM)] = [(true, SM)] := by
    unfold fields
    by_cases hv : v = Variant.ros
    · simp only [if_pos hv, e3]
      refine ⟨?_, trivial⟩
      rw [List.map_eq_flatMap]
      rfl
    · simp only [if_neg hv]
      exact ⟨rfl, rfl⟩
  have hnil : ∀ {α : Type} (l : List α), l.flatMap (fun _ => ([] : List Fact)) = [] := by intro α l; induction l <;> simp_all
  unfold classItems
  constructor
  · simp only [facts_append, facts, List.foldl_append, List.foldl_cons, List.foldl_nil, Item.after, List.nil_append, e1, e2, e5, e6, e7,
      List.dropLast_singleton, Item.facts, List.append_nil, Scope.path, List.map_nil]
    simp [smFields, Scope.inClass, Scope.path, hnil]
  · simp only [List.foldl_append, List.foldl_cons, List.foldl_nil, Item.after, List.nil_append, e1.2, e2.2, e5.2, e6.2, e7.2,
      List.dropLast_singleton]

theorem facts_flat (l : List (Str × Item)) (h : ∀ f ∈ l, f.2.after [] = [] ∧ f.2.facts [] = [.fn [SM, f.1] (paramsOf f.2) (bodyOf f.2)]) :
    facts [] (l.map (·.2)) = l.map (fun f => .fn [SM, f.1] (paramsOf f.2) (bodyOf f.2)) ∧ (l.map (·.2)).foldl Item.after [] = [] := by
  have e := facts_map [] l (·.2) (fun f hf => (h f hf).1)
  refine ⟨?_, e.2⟩
  rw [e.1, List.map_eq_flatMap]
  exact List.flatMap_congr (fun f hf => (h f hf).2)

theorem facts_body (U : Unicode) (v : Variant) (m : Stm) (tc : TransitionContext) (first : Str) :
    facts [] (bodyItems U v m tc first) = (smFns U v m tc first).map (fun f => .fn [SM, f.1] (paramsOf f.2) (bodyOf f.2)) ∧
    (bodyItems U v m tc first).foldl Item.after [] = [] := by
  have e : bodyItems U v m tc first = (smFns U v m tc first).map (·.2) := by
    unfold bodyItems smFns
    have h1 : ∀ (b : Bool) (x : Str) (i : Item), (if b = true then [(x, i)] else []).map (·.2) = if b = true then [i] else [] := by
      intro b x i; cases b <;> rfl
    simp only [List.map_append, h1, List.map_map]
    rfl
  rw [e]
  refine facts_flat _ ?_
  intro f hf
  unfold smFns at hf
  simp only [List.mem_append] at hf
  have h2 : ∀ (b : Bool) (x : Str) (i : Item), f ∈ (if b = true then [(x, i)] else []) → f = (x, i) := by
    intro b x i; cases b <;> simp
  rcases hf with (((((hf | hf) | hf) | hf) | hf) | hf) | hf
  · rw [List.mem_singleton.1 hf]; exact ⟨rfl, rfl⟩
  · simp only [helperItems, List.zip_cons_cons, List.zip_nil_right, List.mem_cons, List.not_mem_nil, or_false] at hf
    rcases hf with hf | hf | hf <;> (rw [hf]; exact ⟨rfl, rfl⟩)
  · rw [List.mem_singleton.1 hf]; exact ⟨rfl, rfl⟩
  · rw [h2 _ _ _ hf]; exact ⟨rfl, rfl⟩
  · rw [h2 _ _ _ hf]; exact ⟨rfl, rfl⟩
  · obtain ⟨a, _, rfl⟩ := List.mem_map.1 hf; exact ⟨rfl, rfl⟩
  · obtain ⟨a, _, rfl⟩ := List.mem_map.1 hf; exact ⟨rfl, rfl⟩

theorem facts_main (U : Unicode) (v : Variant) (name : Str) (m : Stm) (tc : TransitionContext) (ctx : CppConfig.Context) (first : Str) :
    facts [] (mainItems U v name m tc ctx first) = mainFacts U v name m tc ctx first := by
  obtain ⟨v1, v2⟩ := facts_verdict U v (GoSet.values m.tests)
  obtain ⟨c1, c2⟩ := facts_class U v m tc first
  obtain ⟨b1, b2⟩ := facts_body U v m tc first
  have k : facts [] (constants v) = constFacts v ∧ (constants v).foldl Item.after [] = [] := by
    unfold constants constFacts
    by_cases hv : v = Variant.ros
    · simp only [if_pos hv]; exact ⟨rfl, rfl⟩
    · simp only [if_neg hv]; exact ⟨rfl, rfl⟩
  have st : facts [] (stateItems U m.states) = [.enum [c!"State"] (m.states.map (fun s => enumField U s.id)),
      .fn [c!"state", c!"name"] [(ty [c!"State"], c!"s")] (stateNameBody U m)] ∧ (stateItems U m.states).foldl Item.after [] = [] := ⟨rfl, rfl⟩
  unfold mainItems mainFacts
  simp only [facts_append, List.foldl_append, k, v1, v2, c1, c2, b1, b2, st]
  rfl

/-! ### lookups -/

/-- What a program is generated from -/
structure Src where
  U : Unicode
  v : Variant
  name : Str
  m : Stm
  ctx : CppConfig.Context

namespace Src

variable (S : Src)

def tc : TransitionContext := TransitionContext.make S.m

def first : Str := Harness.initial S.m

def tests : List Str := GoSet.values S.m.tests

def sm : List (Str × Item) := smFns S.U S.v S.m S.tc S.first

/-- The program, with the prelude -/
def prog : Prog := rtcgProg ++ mainFacts S.U S.v S.name S.m S.tc S.ctx S.first

theorem fns_rtcg : fns rtcgProg =
    [([c!"rtcg", c!"outstr"], [(ty [c!"rtcg", c!"Outcome"], c!"o")], outstrBody),
     ([c!"operator<<"], [(ostream, c!"stm"), (ty [c!"rtcg", c!"Outcome"], c!"o")], shows [c!"rtcg", c!"outstr"]),
     ([c!"rtcg", c!"status", c!"explain"], [(ty [c!"rtcg", c!"Status"], c!"s")], explainBody),
     ([c!"operator<<"], [(ostream, c!"stm"), (ty [c!"rtcg", c!"Status"], c!"o")], shows [c!"rtcg", c!"status", c!"explain"]),
     ([c!"rtcg", c!"status", c!"isRunning"], [(ty [c!"rtcg", c!"Status"], c!"s")], isRunningBody),
     ([c!"rtcg", c!"status", c!"exitCode"], [(ty [c!"rtcg", c!"Status"], c!"s")], exitCodeBody),
     ([c!"rtcg", c!"TestCase", c!"getStatus"], [], stmtsOf [.retVal (nm c!"status_")])] := rfl

theorem fn_const (v : Variant) (q : List Str) : Prog.fn (constFacts v) q = none := by
  unfold constFacts; split <;> rfl

theorem fn_fields (l : List Str) (q : List Str) : Prog.fn (verdictFields l) q = none := by
  apply fn_none
  intro f hf
  obtain ⟨x, hx, h⟩ := List.mem_filterMap.1 hf
  obtain ⟨t, _, rfl⟩ := List.mem_map.1 hx
  cases h

theorem fn_smFields (U : Unicode) (v : Variant) (tc : TransitionContext) (first : Str) (q : List Str) :
    Prog.fn (smFields U v tc first) q = none := by
  apply fn_none
  intro f hf
  obtain ⟨x, hx, h⟩ := List.mem_filterMap.1 hf
  unfold smFields at hx
  rcases List.mem_append.1 hx with hx | hx
  · simp only [List.mem_cons, List.not_mem_nil, or_false] at hx
    rcases hx with rfl | rfl <;> cases h
  · split at hx
    · obtain ⟨t, _, rfl⟩ := List.mem_map.1 hx
      cases h
    · cases hx

theorem fn_rtcg_none {q : List Str} (h : q.head? ≠ some c!"rtcg") (h' : q ≠ [c!"operator<<"]) : Prog.fn rtcgProg q = none := by
  apply fn_none
  rw [fns_rtcg]
  intro f hf e
  simp only [List.mem_cons, List.not_mem_nil, or_false] at hf
  rcases hf with rfl | rfl | rfl | rfl | rfl | rfl | rfl <;> first | (subst e; exact h rfl) | (subst e; exact h' rfl)

theorem fn_verdict_none {q : List Str} (U : Unicode) (v : Variant) (tests : List Str) (h : q.head? ≠ some c!"Verdict") :
    Prog.fn (verdictFns U v tests) q = none := by
  apply fn_none
  intro f hf e
  obtain ⟨x, hx, h'⟩ := List.mem_filterMap.1 hf
  rcases List.mem_append.1 hx with hx | hx
  · rw [List.mem_singleton] at hx
    subst hx
    cases h'
    subst e; exact h rfl
  · obtain ⟨t, _, rfl⟩ := List.mem_map.1 hx
    cases h'
    subst e; exact h rfl

theorem fn_sm_none {q : List Str} (l : List (Str × Item)) (h : q.head? ≠ some SM) :
    Prog.fn (l.map (fun f => Fact.fn [SM, f.1] (paramsOf f.2) (bodyOf f.2))) q = none := by
  apply fn_none
  intro f hf e
  obtain ⟨x, hx, h'⟩ := List.mem_filterMap.1 hf
  obtain ⟨t, _, rfl⟩ := List.mem_map.1 hx
  cases h'
  subst e; exact h rfl

theorem fn_one (q q' : List Str) (ps : List Param) (b : Stmts) : Prog.fn [.fn q ps b] q' = if q = q' then some (ps, b) else none := by
  unfold Prog.fn; simp only [List.findSome?_cons, List.findSome?_nil]; split <;> simp_all

theorem fn_cls (q q' : List Str) (b : Option (List Str)) : Prog.fn [.cls q b] q' = none := rfl

theorem fn_enum (q q' ms : List Str) (P : Prog) : Prog.fn (.enum q ms :: P) q' = Prog.fn P q' := rfl

/-- A function is one of the prelude, of class Verdict, of class StateMachine, `state::name` or `main`. -/
theorem fn_prog (q : List Str) : S.prog.fn q =
    (Prog.fn rtcgProg q).or ((Prog.fn (verdictFns S.U S.v S.tests) q).or
      ((if [c!"state", c!"name"] = q then some ([(ty [c!"State"], c!"s")], stateNameBody S.U S.m) else none).or
      ((Prog.fn (S.sm.map (fun f => Fact.fn [SM, f.1] (paramsOf f.2) (bodyOf f.2))) q).or
      (if [c!"main"] = q then some (mainParams S.v, bodyOf (mainItem S.U S.v S.name S.tc S.ctx)) else none)))) := by
  unfold prog mainFacts
  simp only [fn_append, fn_const, fn_cls, fn_fields, fn_smFields, fn_enum, fn_one, Option.none_or, Option.or_none, Option.or_assoc]
  rfl

theorem fn_map (l : List (Str × Item)) (x : Str) :
    Prog.fn (l.map (fun f => Fact.fn [SM, f.1] (paramsOf f.2) (bodyOf f.2))) [SM, x] =
      (l.find? (fun f => f.1 = x)).map (fun f => (paramsOf f.2, bodyOf f.2)) := by
  induction l with
  | nil => rfl
  | cons f l ih =>
    rw [List.map_cons, List.find?_cons, ← List.singleton_append, fn_append, fn_one, ih]
    by_cases h : f.1 = x
    · simp [h]
    · simp [h]

/-- The functions of the class StateMachine -/
theorem fn_sm (x : Str) : S.prog.fn [SM, x] = (S.sm.find? (fun f => f.1 = x)).map (fun f => (paramsOf f.2, bodyOf f.2)) := by
  rw [fn_prog, fn_rtcg_none (by simp [SM]) (by simp), fn_verdict_none _ _ _ (by simp [SM]),
    if_neg (by simp [SM] : ¬ [c!"state", c!"name"] = [SM, x]), if_neg (by simp : ¬ [c!"main"] = [SM, x]), fn_map]
  simp

theorem fn_main : S.prog.fn [c!"main"] = some (mainParams S.v, bodyOf (mainItem S.U S.v S.name S.tc S.ctx)) := by
  rw [fn_prog, fn_rtcg_none (by decide) (by decide), fn_verdict_none _ _ _ (by decide), fn_sm_none _ (by decide), if_neg (by decide),
    if_pos rfl]
  rfl

theorem fn_state : S.prog.fn [c!"state", c!"name"] = some ([(ty [c!"State"], c!"s")], stateNameBody S.U S.m) := by
  rw [fn_prog, fn_rtcg_none (by decide) (by decide), fn_verdict_none _ _ _ (by decide), if_pos rfl]
  rfl

theorem fn_isRunning : S.prog.fn [c!"rtcg", c!"status", c!"isRunning"] = some ([(ty [c!"rtcg", c!"Status"], c!"s")], isRunningBody) := by
  rw [fn_prog, fn_eq, fns_rtcg]
  rfl

theorem fn_exitCode : S.prog.fn [c!"rtcg", c!"status", c!"exitCode"] = some ([(ty [c!"rtcg", c!"Status"], c!"s")], exitCodeBody) := by
  rw [fn_prog, fn_eq, fns_rtcg]
  rfl

theorem fn_explain : S.prog.fn [c!"rtcg", c!"status", c!"explain"] = some ([(ty [c!"rtcg", c!"Status"], c!"s")], explainBody) := by
  rw [fn_prog, fn_eq, fns_rtcg]
  rfl

theorem fn_outstr : S.prog.fn [c!"rtcg", c!"outstr"] = some ([(ty [c!"rtcg", c!"Outcome"], c!"o")], outstrBody) := by
  rw [fn_prog, fn_eq, fns_rtcg]
  rfl

theorem fn_getStatus : S.prog.fn [c!"rtcg", c!"TestCase", c!"getStatus"] = some ([], stmtsOf [.retVal (nm c!"status_")]) := by
  rw [fn_prog, fn_eq, fns_rtcg]
  rfl

/-- The setter of a test -/
def setterBody (U : Unicode) (v : Variant) (t : Str) : Stmts :=
  stmtsOf [
    .ite (.eq c!"==" (nm (t ++ c!"_")) (nm c!"new_val")) .ret .skip,
    logged U v c!"info" (.str (c!"Test " ++ t ++ c!" is now ")) [nm c!"new_val", .str c!"; was ", nm (t ++ c!"_"), .str c!"."],
    .expr (.assign (nm (t ++ c!"_")) (nm c!"new_val"))]

def dumpBody (U : Unicode) (v : Variant) (tests : List Str) : Stmts :=
  stmtsOf (logged U v c!"info" (.str c!"Final outcomes: ") [] ::
      tests.map (fun t => logged U v c!"info" (.str (c!"  " ++ t ++ c!" = ")) [nm (t ++ c!"_")]))

theorem fns_verdict (U : Unicode) (v : Variant) (tests : List Str) : fns (verdictFns U v tests) =
    ([c!"Verdict", c!"dump"], [], dumpBody U v tests) :: tests.map (fun t => ([c!"Verdict", t], [(outcomeTy, c!"new_val")], setterBody U v t)) := by
  unfold verdictFns fns
  rw [List.filterMap_append, List.filterMap_map]
  show _ :: List.filterMap _ _ = _ :: _
  congr 1
  exact filterMap_of _ _ _ (fun _ => rfl)

theorem fn_verdict {x : Str} : S.prog.fn [c!"Verdict", x] = Prog.fn (verdictFns S.U S.v S.tests) [c!"Verdict", x] := by
  rw [fn_prog, fn_rtcg_none (by simp) (by simp), fn_sm_none _ (by simp [SM]), if_neg (by simp), if_neg (by simp)]
  simp

theorem fn_dump (h : c!"dump" ∉ S.tests) : S.prog.fn [c!"Verdict", c!"dump"] = some ([], dumpBody S.U S.v S.tests) := by
  rw [fn_verdict, fn_eq, fns_verdict]
  rfl

theorem fn_setter {t : Str} (ht : t ∈ S.tests) (h : c!"dump" ∉ S.tests) :
    S.prog.fn [c!"Verdict", t] = some ([(outcomeTy, c!"new_val")], setterBody S.U S.v t) := by
  rw [fn_verdict]
  refine fn_some ?_ ?_
  · rw [fns_verdict]
    exact List.mem_cons_of_mem _ (List.mem_map.2 ⟨t, ht, rfl⟩)
  · rw [fns_verdict]
    intro f hf e
    rcases List.mem_cons.1 hf with rfl | hf
    · simp only [List.cons.injEq, and_true, true_and] at e
      exact absurd (e ▸ ht) h
    · obtain ⟨t', _, rfl⟩ := List.mem_map.1 hf
      simp only [List.cons.injEq, and_true, true_and] at e
      rw [e]

/-- Not a function of the program -/
theorem fn_other {q : List Str} (h1 : q.head? ≠ some c!"rtcg") (h2 : q ≠ [c!"operator<<"]) (h3 : q.head? ≠ some c!"Verdict")
    (h4 : q.head? ≠ some c!"state") (h5 : q.head? ≠ some SM) (h6 : q ≠ [c!"main"]) : S.prog.fn q = none := by
  rw [fn_prog, fn_rtcg_none h1 h2, fn_verdict_none _ _ _ h3, fn_sm_none _ h5, if_neg (by rintro rfl; exact h4 rfl), if_neg (Ne.symm h6)]
  rfl

theorem fn_deep {x y : Str} {q : List Str} : S.prog.fn (SM :: x :: y :: q) = none := by
  rw [fn_prog, fn_rtcg_none (by simp [SM]) (by simp), fn_verdict_none _ _ _ (by simp [SM]), if_neg (by simp [SM]), if_neg (by simp),
    fn_none]
  · rfl
  · intro f hf e
    obtain ⟨x, hx, h'⟩ := List.mem_filterMap.1 hf
    obtain ⟨t, _, rfl⟩ := List.mem_map.1 hx
    cases h'
    simp at e

/-! ### enumerations, classes, fields and variables -/

theorem isEnum_none {P : Prog} (h : ∀ e ms, Fact.enum e ms ∉ P) (q : List Str) : P.isEnum q = false := by
  unfold Prog.isEnum
  rw [List.any_eq_false]
  intro f hf
  cases f with
  | enum e ms => exact absurd hf (h e ms)
  | _ => simp

theorem isEnum_prog (q : List Str) : S.prog.isEnum q =
    ((q.dropLast = [c!"rtcg", c!"Outcome"] && q.getLast?.any (fun m => outcomeNames.contains m)) ||
     (q.dropLast = [c!"rtcg", c!"Status"] && q.getLast?.any (fun m => statusNames.contains m)) ||
     (q.dropLast = [c!"State"] && q.getLast?.any (fun m => (S.m.states.map (fun s => enumField S.U s.id)).contains m))) := by
  unfold prog mainFacts
  have e1 : Prog.isEnum rtcgProg q = ((q.dropLast = [c!"rtcg", c!"Outcome"] && q.getLast?.any (fun m => outcomeNames.contains m)) ||
     (q.dropLast = [c!"rtcg", c!"Status"] && q.getLast?.any (fun m => statusNames.contains m))) := by
    rw [rtcgProg_eq]
    simp [Prog.isEnum]
  have e2 : Prog.isEnum (constFacts S.v) q = false := by
    apply isEnum_none; intro e ms; unfold constFacts; split <;> simp
  have e3 : ∀ l, Prog.isEnum (verdictFields l) q = false := by
    intro l; apply isEnum_none; intro e ms; simp [verdictFields]
  have e4 : ∀ l, Prog.isEnum (verdictFns S.U S.v l) q = false := by
    intro l; apply isEnum_none; intro e ms; simp [verdictFns]
  have e5 : Prog.isEnum (smFields S.U S.v S.tc S.first) q = false := by
    apply isEnum_none; intro e ms; unfold smFields; split <;> simp
  have e6 : ∀ l : List (Str × Item), Prog.isEnum (l.map (fun f => Fact.fn [SM, f.1] (paramsOf f.2) (bodyOf f.2))) q = false := by
    intro l; apply isEnum_none; intro e ms; simp
  simp only [isEnum_append, e1, e2, e3, e4, e5, e6]
  simp [Prog.isEnum]

theorem cls_none {P : Prog} (h : ∀ e ms, Fact.cls e ms ∉ P) (q : List Str) : P.cls q = none := by
  unfold Prog.cls
  rw [List.findSome?_eq_none_iff]
  intro f hf
  cases f with
  | cls e ms => exact absurd hf (h e ms)
  | _ => rfl

theorem cls_prog (q : List Str) : S.prog.cls q =
    if [c!"rtcg", c!"TestCase"] = q then some none else if [c!"Verdict"] = q then some none
    else if [SM] = q then some (some [c!"rtcg", c!"TestCase"]) else none := by
  unfold prog mainFacts
  have e1 : Prog.cls rtcgProg q = if [c!"rtcg", c!"TestCase"] = q then some none else none := by
    rw [rtcgProg_eq]
    unfold Prog.cls
    by_cases h : [c!"rtcg", c!"TestCase"] = q <;> simp [h]
  have e2 : Prog.cls (constFacts S.v) q = none := by
    apply cls_none; intro e ms; unfold constFacts; split <;> simp
  have e3 : ∀ l, Prog.cls (verdictFields l) q = none := by
    intro l; apply cls_none; intro e ms; simp [verdictFields]
  have e4 : ∀ l, Prog.cls (verdictFns S.U S.v l) q = none := by
    intro l; apply cls_none; intro e ms; simp [verdictFns]
  have e5 : Prog.cls (smFields S.U S.v S.tc S.first) q = none := by
    apply cls_none; intro e ms; unfold smFields; split <;> simp
  have e6 : ∀ l : List (Str × Item), Prog.cls (l.map (fun f => Fact.fn [SM, f.1] (paramsOf f.2) (bodyOf f.2))) q = none := by
    intro l; apply cls_none; intro e ms; simp
  simp only [cls_append, e1, e2, e3, e4, e5, e6]
  unfold Prog.cls
  by_cases h1 : [c!"rtcg", c!"TestCase"] = q
  · simp [h1]
  · by_cases h2 : [c!"Verdict"] = q
    · simp [h1, h2]
    · by_cases h3 : [SM] = q <;> simp [h1, h2, h3]

theorem var_none {P : Prog} (h : ∀ e t ms, Fact.var e t ms ∉ P) (q : List Str) : P.var q = none := by
  unfold Prog.var
  rw [List.findSome?_eq_none_iff]
  intro f hf
  cases f with
  | var e t ms => exact absurd hf (h e t ms)
  | _ => rfl

theorem var_prog (q : List Str) : S.prog.var q = Prog.var (constFacts S.v) q := by
  unfold prog mainFacts
  have e1 : Prog.var rtcgProg q = none := by
    rw [rtcgProg_eq]; rfl
  have e3 : ∀ l, Prog.var (verdictFields l) q = none := by
    intro l; apply var_none; intro e t ms; simp [verdictFields]
  have e4 : ∀ l, Prog.var (verdictFns S.U S.v l) q = none := by
    intro l; apply var_none; intro e t ms; simp [verdictFns]
  have e5 : Prog.var (smFields S.U S.v S.tc S.first) q = none := by
    apply var_none; intro e t ms; unfold smFields; split <;> simp
  have e6 : ∀ l : List (Str × Item), Prog.var (l.map (fun f => Fact.fn [SM, f.1] (paramsOf f.2) (bodyOf f.2))) q = none := by
    intro l; apply var_none; intro e t ms; simp
  simp only [var_append, e1, e3, e4, e5, e6]
  simp [Prog.var]

theorem var_long {x y : Str} {q : List Str} : S.prog.var (x :: y :: q) = none := by
  rw [var_prog]
  unfold constFacts
  split
  · simp [Prog.var]
  · rfl

theorem ownFields_none {P : Prog} {q : List Str} (h : ∀ t x e, Fact.field q t x e ∉ P) : P.ownFields q = [] := by
  unfold Prog.ownFields
  rw [List.filterMap_eq_nil_iff]
  intro f hf
  cases f with
  | field c t x e =>
    by_cases hc : c = q
    · exact absurd (hc ▸ hf) (h t x e)
    · simp [hc]
  | _ => rfl

/-- The fields of StateMachine -/
def smFieldList : List (CType × Str × Option Expr) :=
  [(ty [c!"Verdict"], c!"verdict_", none), (ty [c!"State"], c!"state_", some (stateE S.U S.first))] ++
  (if S.v = Variant.ros then S.tc.in_.map (fun a => (publisherTy, publisherName S.U a.channel ++ c!"_", none)) else [])

def verdictFieldList : List (CType × Str × Option Expr) :=
  S.tests.map (fun t => (outcomeTy, t ++ c!"_", some (.name [c!"rtcg", c!"Outcome", c!"UNSET"])))

theorem own_const (q : List Str) : Prog.ownFields (constFacts S.v) q = [] := by
  apply ownFields_none; intro t x e; unfold constFacts; split <;> simp

theorem own_fns (l : List Str) (q : List Str) : Prog.ownFields (verdictFns S.U S.v l) q = [] := by
  apply ownFields_none; intro t x e; simp [verdictFns]

theorem own_sm (l : List (Str × Item)) (q : List Str) :
    Prog.ownFields (l.map (fun f => Fact.fn [SM, f.1] (paramsOf f.2) (bodyOf f.2))) q = [] := by
  apply ownFields_none; intro t x e; simp

theorem own_verdict_none (l : List Str) {q : List Str} (h : q ≠ [c!"Verdict"]) : Prog.ownFields (verdictFields l) q = [] := by
  apply ownFields_none
  intro t x e hx
  simp only [verdictFields, List.mem_map, Fact.field.injEq] at hx
  obtain ⟨_, _, e', _⟩ := hx
  exact h e'.symm

theorem own_smFields_none {q : List Str} (h : q ≠ [SM]) : Prog.ownFields (smFields S.U S.v S.tc S.first) q = [] := by
  apply ownFields_none
  intro t x e hx
  unfold smFields at hx
  rcases List.mem_append.1 hx with hx | hx
  · simp only [List.mem_cons, Fact.field.injEq, List.not_mem_nil, or_false] at hx
    rcases hx with ⟨e', _⟩ | ⟨e', _⟩ <;> exact h e'
  · split at hx
    · simp only [List.mem_map, Fact.field.injEq] at hx
      obtain ⟨_, _, e', _⟩ := hx
      exact h e'.symm
    · cases hx

theorem ownFields_base : S.prog.ownFields [c!"rtcg", c!"TestCase"] =
    [(ty [c!"Status"], c!"status_", some (.name [c!"Status", c!"WAIT_START"]))] := by
  unfold prog mainFacts
  have e1 : Prog.ownFields rtcgProg [c!"rtcg", c!"TestCase"] = [(ty [c!"Status"], c!"status_", some (.name [c!"Status", c!"WAIT_START"]))] := by
    rw [rtcgProg_eq]; rfl
  simp only [ownFields_append, e1, own_const, own_fns, own_sm, own_verdict_none _ (show [c!"rtcg", c!"TestCase"] ≠ [c!"Verdict"] by decide),
    own_smFields_none S (show [c!"rtcg", c!"TestCase"] ≠ [SM] by decide)]
  rfl

theorem ownFields_verdict : S.prog.ownFields [c!"Verdict"] = S.verdictFieldList := by
  unfold prog mainFacts
  have e1 : Prog.ownFields rtcgProg [c!"Verdict"] = [] := by
    rw [rtcgProg_eq]; rfl
  have e2 : Prog.ownFields (verdictFields (GoSet.values S.m.tests)) [c!"Verdict"] = S.verdictFieldList := by
    unfold verdictFields verdictFieldList Prog.ownFields
    rw [List.filterMap_map]
    exact filterMap_of _ _ _ (fun _ => rfl)
  simp only [ownFields_append, e1, own_const, own_fns, own_sm, e2, own_smFields_none S (show [c!"Verdict"] ≠ [SM] by decide)]
  simp [Prog.ownFields]

theorem ownFields_sm : S.prog.ownFields [SM] = S.smFieldList := by
  unfold prog mainFacts
  have e1 : Prog.ownFields rtcgProg [SM] = [] := by
    rw [rtcgProg_eq]; rfl
  have e2 : Prog.ownFields (smFields S.U S.v S.tc S.first) [SM] = S.smFieldList := by
    unfold smFields smFieldList
    rw [ownFields_append]
    congr 1
    split
    · unfold Prog.ownFields
      rw [List.filterMap_map]
      exact filterMap_of _ _ _ (fun _ => rfl)
    · rfl
  simp only [ownFields_append, e1, own_const, own_fns, own_sm, e2, own_verdict_none _ (show [SM] ≠ [c!"Verdict"] by decide)]
  simp [Prog.ownFields]

theorem fields_sm : S.prog.fields [SM] = (ty [c!"Status"], c!"status_", some (.name [c!"Status", c!"WAIT_START"])) :: S.smFieldList := by
  unfold Prog.fields
  rw [cls_prog, if_neg (by decide), if_neg (by decide), if_pos rfl]
  simp only [ownFields_base, ownFields_sm]
  rfl

theorem fields_verdict : S.prog.fields [c!"Verdict"] = S.verdictFieldList := by
  unfold Prog.fields
  rw [cls_prog, if_neg (by decide), if_pos rfl]
  simp only [ownFields_verdict]
  rfl

theorem fields_base : S.prog.fields [c!"rtcg", c!"TestCase"] = [(ty [c!"Status"], c!"status_", some (.name [c!"Status", c!"WAIT_START"]))] := by
  unfold Prog.fields
  rw [cls_prog, if_pos rfl]
  simp only [ownFields_base]
  rfl

end Src

end Sem

end Cpp

end Spec

end Rtcg
