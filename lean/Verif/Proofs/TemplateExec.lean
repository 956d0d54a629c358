import Verif.Proofs.TemplateTrees
import Verif.Spec.CppText

/-
Executing the parsed templates: what they write, and when they fail.
-/

namespace Rtcg

namespace Tmpl

namespace Exec

open Strmanip Cpp Templates Spec.CppText

/-- An execution that succeeds -/
abbrev done (s : Str) : Out := (s, .ok ())

/-! ### running one after the other -/

theorem emit_done (s t : Str) : emit s (done t) = done (s ++ t) := rfl

theorem andThen_done (s : Str) (k : Out) : andThen (done s) k = emit s k := rfl

theorem bif_done (b : Bool) (s t : Str) : (bif b then done s else done t) = done (if b then s else t) := by cases b <;> rfl

theorem iterate_done {V : Type} {f : V × V → Out} (g : V × V → Str) :
    ∀ (l : List (V × V)), (∀ x ∈ l, f x = done (g x)) → iterate f l = done (l.flatMap g)
  | [], _ => rfl
  | x :: l, h => by
    rw [iterate, h x (List.mem_cons_self ..), iterate_done g l (fun y hy => h y (List.mem_cons_of_mem _ hy)), andThen_done, emit_done,
      List.flatMap_cons]

/-- A `range` over things that are packed as values -/
theorem iterate_map {α V : Type} {f : V × V → Out} (pack : α → V × V) (g : α → Str) (l : List α)
    (h : ∀ x ∈ l, f (pack x) = done (g x)) : iterate f (l.map pack) = done (l.flatMap g) := by
  induction l with
  | nil => rfl
  | cons x l ih =>
    rw [List.map_cons, iterate, h x (List.mem_cons_self ..), ih (fun y hy => h y (List.mem_cons_of_mem _ hy)), andThen_done, emit_done,
      List.flatMap_cons]

theorem zipIdx_map {α β : Type} (f : α → β) (l : List α) (n : Nat) : (l.map f).zipIdx n = (l.zipIdx n).map (fun p => (f p.1, p.2)) := by
  induction l generalizing n with
  | nil => rfl
  | cons x l ih => simp only [List.map_cons, List.zipIdx_cons, ih]

theorem flatMap_zipIdx_fst {α : Type} (g : α → Str) (l : List α) (n : Nat) : (l.zipIdx n).flatMap (fun p => g p.1) = l.flatMap g := by
  induction l generalizing n with
  | nil => rfl
  | cons x l ih => simp only [List.zipIdx_cons, List.flatMap_cons, ih]

/-- `range` without an `else` over a list, where the position does not matter -/
theorem range_list {α : Type} {f : Val × Val → Out} (pack : α → Val) (g : α → Str) (l : List α)
    (h : ∀ x ∈ l, ∀ n, f (.num n, pack x) = done (g x)) :
    iterate f ((l.map pack).zipIdx.map (fun vi => (.num vi.2, vi.1))) = done (l.flatMap g) := by
  rw [zipIdx_map, List.map_map, iterate_map _ (fun p => g p.1), flatMap_zipIdx_fst]
  intro x hx
  exact h x.1 (List.fst_mem_of_mem_zipIdx hx) x.2

/-- `range` over a list, where the position matters -/
theorem range_idx {α : Type} {f : Val × Val → Out} (pack : α → Val) (g : α → Nat → Str) (l : List α)
    (h : ∀ x ∈ l, ∀ n, f (.num n, pack x) = done (g x n)) :
    iterate f ((l.map pack).zipIdx.map (fun vi => (.num vi.2, vi.1))) = done (l.zipIdx.flatMap (fun p => g p.1 p.2)) := by
  rw [zipIdx_map, List.map_map, iterate_map _ (fun p => g p.1 p.2)]
  intro x hx
  exact h x.1 (List.fst_mem_of_mem_zipIdx hx) x.2

/-- Sorting by key does not look at the elements -/
theorem sortEntries_map {α β : Type} (f : Str → α → β) (m : GoMap Str α) :
    sortEntries (m.map (fun e => (e.1, f e.1 e.2))) = (sortEntries m).map (fun e => (e.1, f e.1 e.2)) := by
  rw [sortEntries, sortEntries, List.map_mergeSort]
  intro a _ b _
  rfl

theorem mem_sortEntries {α : Type} (m : GoMap Str α) (e : Str × α) : e ∈ sortEntries m ↔ e ∈ m :=
  (List.mergeSort_perm ..).mem_iff

/-- The values visited by a `range` over a list -/
def listItems {α : Type} (pack : α → Val) (l : List α) : List (Val × Val) := (l.map pack).zipIdx.map (fun vi => (.num vi.2, vi.1))

/-- The values visited by a `range` over a map -/
def mapItems {α : Type} (pack : α → Val) (m : GoMap Str α) : List (Val × Val) := (sortEntries m).map (fun e => (.str e.1, pack e.2))

theorem items_list {α : Type} (pack : α → Val) (l : List α) : items (.list (l.map pack)) = .ok (listItems pack l) := rfl

theorem items_map {α : Type} (pack : α → Val) (m : GoMap Str α) :
    items (.map (m.map (fun e => (e.1, pack e.2)))) = .ok (mapItems pack m) := by
  rw [items, sortEntries_map (fun _ => pack), List.map_map]; rfl

/-- A list of transitions as a value -/
def transList (ts : List Transition) : Val := .list (ts.map (fun t => .obj (.transition t)))

theorem items_stateMap (m : GoMap Str (List Transition)) : items (ofStateMap m) = .ok (mapItems transList m) := items_map transList m

theorem items_transList (ts : List Transition) : items (transList ts) = .ok (listItems (fun t => .obj (.transition t)) ts) := rfl

theorem items_tests (tests : List Str) : items (.map (tests.map (fun k => (k, .nil)))) =
    .ok (mapItems (fun _ => .nil) (tests.map (fun k => (k, ())))) := by
  rw [← items_map, List.map_map]; rfl

theorem items_verdict (v : Verdict) : items (.obj (.verdict v)) = .ok (mapItems (fun o => .obj (.outcome o)) v) := rfl

theorem items_types (m : GoMap Str CppConfig.ChannelType) :
    items (.obj (.channelTypes m)) = .ok (mapItems (fun t => .obj (.channelType t)) m) := rfl

/-- A whole `range` without an `else` -/
theorem bif_iterate {V : Type} (f : V × V → Out) (l : List (V × V)) :
    (bif l.isEmpty then done [] else iterate f l) = iterate f l := by
  cases l <;> rfl

theorem rangeL {α : Type} {f : Val × Val → Out} (pack : α → Val) (g : α → Str) (l : List α)
    (h : ∀ x ∈ l, ∀ n, f (.num n, pack x) = done (g x)) :
    (bif (listItems pack l).isEmpty then done [] else iterate f (listItems pack l)) = done (l.flatMap g) := by
  rw [bif_iterate]; exact range_list pack g l h

theorem rangeI {α : Type} {f : Val × Val → Out} (pack : α → Val) (g : α → Nat → Str) (l : List α)
    (h : ∀ x ∈ l, ∀ n, f (.num n, pack x) = done (g x n)) :
    (bif (listItems pack l).isEmpty then done [] else iterate f (listItems pack l)) = done (l.zipIdx.flatMap (fun p => g p.1 p.2)) := by
  rw [bif_iterate]; exact range_idx pack g l h

theorem rangeM {α : Type} {f : Val × Val → Out} (pack : α → Val) (g : Str × α → Str) (m : GoMap Str α)
    (h : ∀ e ∈ m, f (.str e.1, pack e.2) = done (g e)) :
    (bif (mapItems pack m).isEmpty then done [] else iterate f (mapItems pack m)) = done ((sortEntries m).flatMap g) := by
  rw [bif_iterate]
  exact iterate_map _ g _ (fun e he => h e ((mem_sortEntries m e).1 he))

/-! ### what the templates find in their data -/

theorem throw_template {α : Type} : (throwErr .template : Res α) = .error (.err .template) := rfl

section fields

variable (date name : Str) (m : Stm) (tc : TransitionContext) (ctx : CppConfig.Context)

theorem f_name : field (.obj (.mainCtx date name m tc ctx)) c!"Name" = .ok (.str name) := rfl
theorem f_date : field (.obj (.mainCtx date name m tc ctx)) c!"Date" = .ok (.str date) := rfl
theorem f_stm : field (.obj (.mainCtx date name m tc ctx)) c!"Stm" = .ok (.obj (.stm m)) := rfl
theorem f_transitions : field (.obj (.mainCtx date name m tc ctx)) c!"Transitions" = .ok (.obj (.transitions tc)) := rfl
theorem f_includes : field (.obj (.mainCtx date name m tc ctx)) c!"Includes" =
    .ok (.list (ctx.includes.map (fun i => .obj (.include_ i)))) := rfl
theorem f_channelTypes : field (.obj (.mainCtx date name m tc ctx)) c!"ChannelTypes" = .ok (.obj (.channelTypes ctx.channelTypes)) := rfl
theorem c_includes : field (.obj (.convCtx ctx)) c!"Includes" = .ok (.list (ctx.includes.map (fun i => .obj (.include_ i)))) := rfl
theorem c_channelTypes : field (.obj (.convCtx ctx)) c!"ChannelTypes" = .ok (.obj (.channelTypes ctx.channelTypes)) := rfl
theorem m_tests (tests : List Str) : field (.obj (.makeCtx tests ctx)) c!"Tests" = .ok (.map (tests.map (fun k => (k, .nil)))) := rfl
theorem m_hasConversion (tests : List Str) : field (.obj (.makeCtx tests ctx)) c!"HasConversion" = .ok (.bool ctx.hasConversion) := rfl
theorem p_name (p : Catkin.Package) : field (.obj (.package p)) c!"Name" = .ok (.str p.name) := rfl
theorem p_depends (p : Catkin.Package) : field (.obj (.package p)) c!"Depends" = .ok (.list (p.depends.map .str)) := rfl
theorem f_states : field (.obj (.stm m)) c!"States" = .ok (.list (m.states.map (fun s => .obj (.state s)))) := rfl
theorem f_tests : field (.obj (.stm m)) c!"Tests" = .ok (.obj (.tests m.tests)) := rfl
theorem f_values (s : GoSet Str) : field (.obj (.tests s)) c!"Values" = .ok (.list ((GoSet.values s).map .str)) := rfl
theorem f_in : field (.obj (.transitions tc)) c!"In" = .ok (.list (tc.in_.map (fun a => .obj (.agg a)))) := rfl
theorem f_out : field (.obj (.transitions tc)) c!"Out" = .ok (.list (tc.out.map (fun a => .obj (.agg a)))) := rfl
theorem f_inMerged : field (.obj (.transitions tc)) c!"InMerged" = .ok (ofStateMap tc.inMerged) := rfl
theorem f_hasIn : field (.obj (.transitions tc)) c!"HasIn" = .ok (.bool tc.hasIn) := rfl
theorem f_firstStateHasIn : field (.obj (.transitions tc)) c!"FirstStateHasIn" = .ok (.bool tc.firstStateHasIn) := rfl
theorem s_id (s : State) : field (.obj (.state s)) c!"ID" = .ok (.str s.id) := rfl
theorem s_verdict (s : State) : field (.obj (.state s)) c!"Verdict" = .ok (.obj (.verdict s.verdict)) := rfl
theorem s_hasIn (s : State) : field (.obj (.state s)) c!"HasIn" = .ok (.bool s.hasIn) := rfl
theorem s_sets (s : State) : field (.obj (.state s)) c!"TransitionSets" =
    .ok (.list (s.transitionSets.map (fun t => .obj (.tset t)))) := rfl
theorem v_isFail (v : Verdict) : field (.obj (.verdict v)) c!"IsFail" = .ok (.bool v.isFail) := rfl
theorem t_channel (s : TSet) : field (.obj (.tset s)) c!"Channel" = .ok (.obj (.channel s.channel)) := rfl
theorem t_transitions (s : TSet) : field (.obj (.tset s)) c!"Transitions" =
    .ok (.list (s.transitions.map (fun t => .obj (.transition t)))) := rfl
theorem a_channel (a : AggregateSet) : field (.obj (.agg a)) c!"Channel" = .ok (.obj (.channel a.channel)) := rfl
theorem a_states (a : AggregateSet) : field (.obj (.agg a)) c!"States" = .ok (ofStateMap a.states) := rfl
theorem tr_value (t : Transition) : field (.obj (.transition t)) c!"Value" = .ok (.obj (.value t.value)) := rfl
theorem tr_next (t : Transition) : field (.obj (.transition t)) c!"Next" = .ok (.str t.next) := rfl
theorem fl_channel (c : Channel) (t : Transition) : field (.obj (.flat c t)) c!"Channel" = .ok (.obj (.channel c)) := rfl
theorem fl_value (c : Channel) (t : Transition) : field (.obj (.flat c t)) c!"Value" = .ok (.obj (.value t.value)) := rfl
theorem fl_next (c : Channel) (t : Transition) : field (.obj (.flat c t)) c!"Next" = .ok (.str t.next) := rfl
theorem ch_name (c : Channel) : field (.obj (.channel c)) c!"Name" = .ok (.str c.name) := rfl
theorem va_type (v : Value) : field (.obj (.value v)) c!"Type" = .ok (.obj (.rsType v.type)) := rfl
theorem va_string (v : Value) : field (.obj (.value v)) c!"StringValue" = .ok (.str v.stringValue) := rfl
theorem ty_isEnum (t : RsType) : field (.obj (.rsType t)) c!"IsEnum" = .ok (.bool t.isEnum) := rfl
theorem ct_base (t : CppConfig.ChannelType) : field (.obj (.channelType t)) c!"Base" = .ok (ofType t.base) := rfl
theorem ct_override (t : CppConfig.ChannelType) : field (.obj (.channelType t)) c!"Override" = .ok (.str t.override) := rfl
theorem ct_hasOverride (t : CppConfig.ChannelType) : field (.obj (.channelType t)) c!"HasOverride" = .ok (.bool t.hasOverride) := rfl
theorem i_src (i : CppConfig.Include) : field (.obj (.include_ i)) c!"Src" = .ok (.str i.src) := rfl
theorem i_isSystem (i : CppConfig.Include) : field (.obj (.include_ i)) c!"IsSystem" = .ok (.bool i.isSystem) := rfl

end fields

section calls

variable (U : Unicode) (s : Str)

theorem k_index1 (v : Val) : call U c!"index" [v] = .ok v := rfl
theorem k_ne (a b : Nat) : call U c!"ne" [.num a, .num b] = .ok (.bool (a ≠ b)) := rfl
theorem k_toUpper : call U c!"toUpper" [.str s] = .ok (.str (U.strToUpper s)) := rfl
theorem k_toLower : call U c!"toLowerUnderscored" [.str s] = .ok (.str (toLowerUnderscored U s)) := rfl
theorem k_callback : call U c!"cppCallbackName" [.str s] = .ok (.str (callbackName s)) := rfl
theorem k_msgType : call U c!"cppChannelMsgType" [.str s] = .ok (.str (channelMsgType U s)) := rfl
theorem k_valueType : call U c!"cppChannelValueType" [.str s] = .ok (.str (channelValueType U s)) := rfl
theorem k_convertFrom : call U c!"cppConvertFrom" [.str s] = .ok (.str (convertFrom U s)) := rfl
theorem k_convertTo : call U c!"cppConvertTo" [.str s] = .ok (.str (convertTo U s)) := rfl
theorem k_enumField : call U c!"cppEnumField" [.str s] = .ok (.str (enumField U s)) := rfl
theorem k_stateEntry : call U c!"cppStateEntry" [.str s] = .ok (.str (stateEntry U s)) := rfl
theorem k_stateEnum : call U c!"cppStateEnum" [.str s] = .ok (.str (stateEnum U s)) := rfl
theorem k_outcome (o : Outcome) : call U c!"cppOutcomeEnum" [.obj (.outcome o)] = .ok (.str (outcomeEnum U o)) := rfl
theorem k_type (t : RsType) : call U c!"cppType" [.obj (.rsType t)] = .ok (.str (stdType t)) := rfl
theorem k_typeNil : call U c!"cppType" [.nil] = .error (.err .template) := rfl
theorem k_value (v : Value) : call U c!"cppValue" [.obj (.value v)] = .ok (.str (Cpp.value v)) := rfl
theorem k_indexMap (m : GoMap Str CppConfig.ChannelType) : call U c!"index" [.obj (.channelTypes m), .str s] =
    .ok (.obj (.channelType ((GoMap.get? m s).getD ⟨none, []⟩))) := rfl

end calls

section parts

variable (U : Unicode)

theorem data_str : (data U).str = .str := rfl
theorem data_num : (data U).num = .num := rfl
theorem data_field : (data U).field = field := rfl
theorem data_call : (data U).call = call U := rfl
theorem data_truth : (data U).truth = truth := rfl
theorem data_items : (data U).items = items := rfl
theorem data_print : (data U).print = print := rfl
theorem data_none : (data U).none = .nil := rfl

end parts

theorem truth_bool (b : Bool) : truth (.bool b) = b := rfl
theorem truth_obj (o : Obj) : truth (.obj o) = true := rfl
theorem truth_nil : truth .nil = false := rfl
theorem print_str (s : Str) : print (.str s) = s := rfl
theorem print_channel (c : Channel) : print (.obj (.channel c)) = c.string := rfl

theorem find_hit {V : Type} (x : Str) (v : V) (r : List (Str × V)) :
    List.find? (fun p => decide (p.1 = x)) ((x, v) :: r) = some (x, v) := by
  rw [List.find?_cons, decide_eq_true rfl]

theorem find_miss {V : Type} (x y : Str) (v : V) (r : List (Str × V)) (h : y ≠ x) :
    List.find? (fun p => decide (p.1 = x)) ((y, v) :: r) = List.find? (fun p => decide (p.1 = x)) r := by
  rw [List.find?_cons, decide_eq_false h]

section walks

variable {V : Type} (D : Data V) (call : Str → V → Out) (env : Env V)

theorem walk_nil : walk D call .nil env = done [] := by rw [walk]

theorem walk_text (s : Str) (rest : Node) : walk D call (.text s rest) env = emit s (walk D call rest env) := by rw [walk]

theorem walk_action (t : Term) (rest : Node) : walk D call (.action t rest) env =
    match eval D env t [] with
    | .error e => ([], .error e)
    | .ok v => emit (D.print v) (walk D call rest env) := by rw [walk]; rfl

theorem walk_decl (x : Str) (t : Term) (rest : Node) : walk D call (.decl x t rest) env =
    match eval D env t [] with
    | .error e => ([], .error e)
    | .ok v => walk D call rest { env with vars := (x, v) :: env.vars } := by rw [walk]; rfl

theorem walk_ite (t : Term) (a b rest : Node) : walk D call (.ite t a b rest) env =
    match eval D env t [] with
    | .error e => ([], .error e)
    | .ok v => andThen (bif D.truth v then walk D call a env else walk D call b env) (walk D call rest env) := by rw [walk]; rfl

theorem walk_with (t : Term) (a b rest : Node) : walk D call (.with_ t a b rest) env =
    match eval D env t [] with
    | .error e => ([], .error e)
    | .ok v => andThen (bif D.truth v then walk D call a { env with dot := v } else walk D call b env) (walk D call rest env) := by
  rw [walk]; rfl

theorem walk_template (s : Str) (t : Term) (rest : Node) : walk D call (.template s (some t) rest) env =
    match eval D env t [] with
    | .error e => ([], .error e)
    | .ok v => andThen (call s v) (walk D call rest env) := by rw [walk]; rfl

theorem walk_templateNone (s : Str) (rest : Node) : walk D call (.template s none rest) env =
    andThen (call s D.none) (walk D call rest env) := by rw [walk]

end walks

/-- A `range` without an `else` over a list, where the position does not matter -/
theorem walk_list {U : Unicode} {call : Str → Val → Out} {vs : List Str} {t : Term} {a rest : Node} {env : Env Val} {α : Type}
    {pack : α → Val} (g : α → Str) {l : List α} (he : eval (data U) env t [] = .ok (.list (l.map pack)))
    (hb : ∀ x ∈ l, ∀ n, walk (data U) call a (bind env vs (.num n, pack x)) = done (g x)) :
    walk (data U) call (.range vs t a .nil rest) env = emit (l.flatMap g) (walk (data U) call rest env) := by
  rw [walk, he, walk]
  show andThen (bif (listItems pack l).isEmpty then done [] else iterate _ (listItems pack l)) _ = _
  rw [rangeL pack g l hb, andThen_done]

/-- A `range` without an `else` over a list, where the position matters -/
theorem walk_listI {U : Unicode} {call : Str → Val → Out} {vs : List Str} {t : Term} {a rest : Node} {env : Env Val} {α : Type}
    {pack : α → Val} (g : α → Nat → Str) {l : List α} (he : eval (data U) env t [] = .ok (.list (l.map pack)))
    (hb : ∀ x ∈ l, ∀ n, walk (data U) call a (bind env vs (.num n, pack x)) = done (g x n)) :
    walk (data U) call (.range vs t a .nil rest) env =
      emit (l.zipIdx.flatMap (fun p => g p.1 p.2)) (walk (data U) call rest env) := by
  rw [walk, he, walk]
  show andThen (bif (listItems pack l).isEmpty then done [] else iterate _ (listItems pack l)) _ = _
  rw [rangeI pack g l hb, andThen_done]

/-- A `range` without an `else` over a map -/
theorem walk_map {U : Unicode} {call : Str → Val → Out} {vs : List Str} {t : Term} {a rest : Node} {env : Env Val} {α : Type}
    {x : Val} {pack : α → Val} (g : Str × α → Str) {m : GoMap Str α} (he : eval (data U) env t [] = .ok x)
    (hi : items x = .ok (mapItems pack m))
    (hb : ∀ e ∈ m, walk (data U) call a (bind env vs (.str e.1, pack e.2)) = done (g e)) :
    walk (data U) call (.range vs t a .nil rest) env = emit ((sortEntries m).flatMap g) (walk (data U) call rest env) := by
  rw [walk, he, walk]
  simp only [data_items]
  rw [hi]
  show andThen (bif (mapItems pack m).isEmpty then done [] else iterate _ (mapItems pack m)) _ = _
  rw [rangeM pack g m hb, andThen_done]

/-- Walk through a template up to the next `range` -/
macro "walking" "[" ts:Lean.Parser.Tactic.simpLemma,* "]" : tactic =>
  `(tactic| simp (config := {decide := true}) only [walk_nil, walk_text, walk_action, walk_decl, walk_ite, walk_with, walk_template,
    walk_templateNone, eval, data_str, data_num, data_field, data_call, data_truth, data_print, data_none, bind, List.isEmpty_nil, if_true, if_false, ite_not, decide_eq_true_eq, ne_eq, cond_true, cond_false, andThen_done, emit_done, bif_done,
    f_name, f_date, f_stm, f_transitions, f_includes, f_channelTypes, c_includes, c_channelTypes, m_tests, m_hasConversion, p_name,
    p_depends, f_states, f_tests, f_values, f_in, f_out, f_inMerged, f_hasIn, f_firstStateHasIn, s_id, s_verdict, s_hasIn, s_sets,
    v_isFail, t_channel, t_transitions, a_channel, a_states, tr_value, tr_next, fl_channel, fl_value, fl_next, ch_name, va_type,
    va_string, ty_isEnum, ct_base, ct_override, ct_hasOverride, i_src, i_isSystem,
    k_index1, k_ne, k_toUpper, k_toLower, k_callback, k_msgType, k_valueType, k_convertFrom, k_convertTo, k_enumField, k_stateEntry,
    k_stateEnum, k_outcome, k_type, k_typeNil, k_value, k_indexMap,
    truth_bool, truth_obj, truth_nil, print_str, print_channel, find_hit, find_miss, List.append_nil, List.append_assoc, $ts,*])

/-- What the templates that differ between the variants write -/
structure Logs (U : Unicode) (v : Variant) (call : Str → Val → Out) : Prop where
  log : ∀ s, call c!"log" (.str s) = done (log U v s)
  endLog : call c!"end_log" .nil = done (endLog v)


theorem includes_walk (U : Unicode) (v : Variant) (call : Str → Val → Out) (date name m tc ctx)
    (h : call c!"system_includes" (.obj (.mainCtx date name m tc ctx)) = done (systemIncludes v)) (vars) :
    walk (data U) call Trees.baseIncludesCpp ⟨.obj (.mainCtx date name m tc ctx), vars⟩ = done (includes v ctx) := by
  walking [Trees.baseIncludesCpp, h]
  rw [walk_list includeLine ?he ?hb]
  case he => rfl
  case hb =>
    intro i _ n
    walking [includeLine]
  walking [includes]

theorem inCallback_walk (U : Unicode) (v : Variant) (call : Str → Val → Out) (H : Logs U v call) (mm : GoMap Str (List Transition))
    (hm : ∀ e ∈ mm, e.2 ≠ []) (vars) :
    walk (data U) call Trees.baseInCallbackCpp ⟨ofStateMap mm, vars⟩ =
      done (c!"\n  switch (state_)\n  {" ++ (sortEntries mm).flatMap (acceptedCase U v) ++
  c!"\n  default:\n    // We shouldn't be seeing an input acknowledgement in this state.\n    " ++
  logged U v c!"error" c!"\"Accepted input in unexpected state\" << stateName()" ++
  c!"\n    end(rtcg::Status::BUG);\n  }\n") := by
  walking [Trees.baseInCallbackCpp, H.log, H.endLog]
  rw [walk_map (acceptedCase U v) ?he (items_stateMap _) ?hb]
  case he => rfl
  case hb =>
    intro e he
    obtain ⟨k, ts⟩ := e
    cases ts with
    | nil => exact absurd rfl (hm _ he)
    | cons t ts =>
      walking [acceptedCase, H.log, H.endLog, logged, show Tmpl.call U c!"index" [transList (t :: ts), .num 0] = .ok (.obj (.transition t)) from rfl]
      rfl
  walking [H.log, H.endLog, logged]

theorem outCallback_walk (U : Unicode) (v : Variant) (call : Str → Val → Out) (H : Logs U v call) (a : AggregateSet) :
    walk (data U) call Trees.baseOutCallbackCpp ⟨.obj (.agg a), [([], .obj (.agg a))]⟩ =
      done (c!"\n  auto value = " ++ convertFrom U a.channel.name ++ c!"(msg);\n\n  switch (state_)\n  {" ++
  (sortEntries a.states).flatMap (outCase U v a.channel) ++ c!"\n  default:\n    " ++
  logged U v c!"info" (c!"\"Output \" << value << \" on " ++ a.channel.string ++ c!" in unexpected state \" << stateName() << \".\"") ++
  c!"\n    end(rtcg::Status::OFF_SCRIPT);\n  }\n") := by
  walking [Trees.baseOutCallbackCpp, H.log, H.endLog]
  rw [walk_map (outCase U v a.channel) ?he (items_stateMap _) ?hb]
  case he => rfl
  case hb =>
    intro e he
    obtain ⟨k, ts⟩ := e
    walking []
    rw [walk_listI (pack := fun t => Val.obj (.transition t)) (outBranch U) ?he ?hb]
    case he => rfl
    case hb =>
      intro t _ n
      walking [outBranch]
    walking [H.log, H.endLog, logged, outCase]
  walking [H.log, H.endLog, logged]

theorem stateEntry_walk (U : Unicode) (v : Variant) (call : Str → Val → Out) (H : Logs U v call) (s : State)
    (hin : ∀ c t, call c!"input" (.obj (.flat c t)) = done (sendInput U v c t)) :
    c!"\n\nvoid StateMachine::" ++ stateEntry U s.id ++ c!"()\n{\n  state_ = " ++ stateEnum U s.id ++ c!";\n" ++
      (walk (data U) call Trees.baseStateEntryCpp ⟨.obj (.state s), [([], .obj (.state s))]⟩).1 ++ c!"\n}" = entry U v s ∧
    (walk (data U) call Trees.baseStateEntryCpp ⟨.obj (.state s), [([], .obj (.state s))]⟩).2 = .ok () := by
  suffices h : walk (data U) call Trees.baseStateEntryCpp ⟨.obj (.state s), [([], .obj (.state s))]⟩ = done (
    c!"\n  " ++ logged U v c!"info" (c!"\"Entered state " ++ s.id ++ c!".\"") ++ (sortEntries s.verdict).flatMap (setVerdict U) ++
    (if s.verdict.isFail then c!"\n\n  end(rtcg::Status::FAIL); // This state fails at least one test"
     else if s.hasIn then
      c!"\n\n  // This state provides an input to the SUT\n  status_ = rtcg::Status::WAIT_IN;" ++
      (match s.in_ with
       | some (c, t) => sendText U v s c t
       | none => [])
     else
      c!"\n\n  // This state expects an output from the SUT\n  status_ = rtcg::Status::WAIT_OUT;" ++
      s.transitionSets.flatMap (fun ts => ts.transitions.flatMap (receiveText U v s ts.channel)))) by
    rw [h]
    refine ⟨?_, rfl⟩
    simp only [entry, List.append_assoc]
    rfl
  walking [Trees.baseStateEntryCpp, H.log, H.endLog]
  rw [walk_map (setVerdict U) ?he (items_verdict _) ?hb]
  case he => rfl
  case hb =>
    intro e _
    walking [setVerdict]
  walking [logged]
  cases hf : s.verdict.isFail with
  | true => walking []
  | false =>
    cases hh : s.hasIn with
    | true =>
      cases hi : s.in_ with
      | none =>
        walking [show field (.obj (.state s)) c!"In" = .ok .nil by show (match s.in_ with | some (c, t) => _ | none => _) = _; rw [hi]]
      | some ct =>
        obtain ⟨c, t⟩ := ct
        walking [show field (.obj (.state s)) c!"In" = .ok (.obj (.flat c t)) by show (match s.in_ with | some (c, t) => _ | none => _) = _; rw [hi],
          sendText, H.log, H.endLog, hin, logged]
    | false =>
      walking []
      rw [walk_list (fun ts : TSet => ts.transitions.flatMap (receiveText U v s ts.channel)) ?he ?hb]
      case he => rfl
      case hb =>
        intro ts _ n
        walking []
        rw [walk_list (receiveText U v s ts.channel) ?he ?hb]
        case he => rfl
        case hb =>
          intro t _ n
          walking [receiveText, H.log, H.endLog, logged]
        walking []
      walking []

theorem verdictDump_walk (U : Unicode) (v : Variant) (call : Str → Val → Out) (H : Logs U v call) (tests : List Str) (vars) :
    walk (data U) call Trees.baseVerdictDump ⟨.list (tests.map .str), vars⟩ =
      done (c!"\n  " ++ logged U v c!"info" c!"\"Final outcomes: \"" ++ tests.flatMap (dumpLine U v)) := by
  walking [Trees.baseVerdictDump, H.log, H.endLog]
  rw [walk_list (dumpLine U v) ?he ?hb]
  case he => rfl
  case hb =>
    intro t _ n
    walking [dumpLine, logged, H.log, H.endLog]
  walking [logged]

theorem verdict_walk (U : Unicode) (v : Variant) (call : Str → Val → Out) (H : Logs U v call) (tests : List Str) (vars)
    (hd : call c!"verdict_dump" (.list (tests.map .str)) =
      done (c!"\n  " ++ logged U v c!"info" c!"\"Final outcomes: \"" ++ tests.flatMap (dumpLine U v))) :
    walk (data U) call Trees.baseVerdictCpp ⟨.list (tests.map .str), vars⟩ = done (verdict U v tests) := by
  walking [Trees.baseVerdictCpp]
  rw [walk_list setterDecl ?he ?hb]
  case he => rfl
  case hb =>
    intro t _ n
    walking [setterDecl]
  walking []
  rw [walk_list outcomeField ?he ?hb]
  case he => rfl
  case hb =>
    intro t _ n
    walking [outcomeField]
  walking [hd]
  rw [walk_list (setter U v) ?he ?hb]
  case he => rfl
  case hb =>
    intro t _ n
    walking [setter, logged, H.log, H.endLog]
  walking [verdict]
  rfl

theorem stateMeta_walk (U : Unicode) (call : Str → Val → Out) (states : List State) (vars) :
    walk (data U) call Trees.baseStateMetaCpp ⟨.list (states.map (fun s => .obj (.state s))), vars⟩ = done (stateMeta U states) := by
  walking [Trees.baseStateMetaCpp]
  rw [walk_list (fun s : State => c!"\n  " ++ enumField U s.id ++ c!",") ?he ?hb]
  case he => rfl
  case hb =>
    intro t _ n
    walking []
  walking []
  rw [walk_list (fun s : State => c!"\n    case " ++ stateEnum U s.id ++ c!":\n      return \"" ++ s.id ++ c!"\";") ?he ?hb]
  case he => rfl
  case hb =>
    intro t _ n
    walking []
  walking [stateMeta]

/-- What the templates that differ between the variants write on the data of a test -/
structure Hooks (U : Unicode) (v : Variant) (date name : Str) (m : Stm) (tc : TransitionContext) (ctx : CppConfig.Context)
    (call : Str → Val → Out) : Prop extends Logs U v call where
  systemIncludes : call c!"system_includes" (.obj (.mainCtx date name m tc ctx)) = done (systemIncludes v)
  constants : call c!"constants" (.obj (.mainCtx date name m tc ctx)) = done (constants v)
  mainArgs : call c!"main_args" (.obj (.mainCtx date name m tc ctx)) = done (mainArgs v)
  preInit : call c!"pre_init" (.obj (.mainCtx date name m tc ctx)) = done (preInit U v name tc)
  ctorArgs : call c!"stm_ctor_args" (.obj (.mainCtx date name m tc ctx)) = done (ctorArgs U v tc)
  init : call c!"init" (.obj (.mainCtx date name m tc ctx)) = done (init U v tc)
  cleanup : call c!"cleanup" (.obj (.mainCtx date name m tc ctx)) = done []
  ctorParams : call c!"stm_ctor_params" (.obj (.mainCtx date name m tc ctx)) = done (ctorParams U v tc)
  fields : call c!"stm_fields" (.obj (.mainCtx date name m tc ctx)) = done (Spec.CppText.stmFields U v tc)
  handles : call c!"stm_ctor" (.obj (.mainCtx date name m tc ctx)) = done (installHandles U v tc)
  end_ : call c!"stm_end" (.obj (.mainCtx date name m tc ctx)) = done (if v = Variant.ros then c!"\n  ros::shutdown();" else [])
  timeoutArgs : call c!"timeout_callback_args" .nil = done (timerArgs v)
  delayArgs : call c!"initial_delay_callback_args" .nil = done (timerArgs v)
  acceptedArgs : call c!"in_callback_args" .nil = done (acceptedArgs v)
  input : ∀ c t, call c!"input" (.obj (.flat c t)) = done (sendInput U v c t)

theorem init_field (m : Stm) (s : State) (ss : List State) (h : m.states = s :: ss) :
    field (.obj (.stm m)) c!"InitialState" = .ok (.str s.id) := by
  show (match m.initialState with | .ok id => (Except.ok (Val.str id) : Res Val) | .error _ => throwErr .template) = _
  rw [Stm.initialState, h]

theorem first_index (U : Unicode) (m : Stm) (s : State) (ss : List State) (h : m.states = s :: ss) :
    Tmpl.call U c!"index" [.list (m.states.map (fun s => .obj (.state s))), .num 0] = .ok (.obj (.state s)) := by
  rw [h]; rfl

set_option maxRecDepth 2000 in
theorem stm_walk (U : Unicode) (v : Variant) (call : Str → Val → Out) (date name m tc ctx) (H : Hooks U v date name m tc ctx call)
    (s : State) (ss : List State) (hs : m.states = s :: ss)
    (hacc : tc.hasIn = true → call c!"in_callback" (ofStateMap tc.inMerged) =
      done (c!"\n  switch (state_)\n  {" ++ (sortEntries tc.inMerged).flatMap (acceptedCase U v) ++
        c!"\n  default:\n    // We shouldn't be seeing an input acknowledgement in this state.\n    " ++
        logged U v c!"error" c!"\"Accepted input in unexpected state\" << stateName()" ++
        c!"\n    end(rtcg::Status::BUG);\n  }\n"))
    (hout : ∀ a, call c!"out_callback" (.obj (.agg a)) =
      done (c!"\n  auto value = " ++ convertFrom U a.channel.name ++ c!"(msg);\n\n  switch (state_)\n  {" ++
        (sortEntries a.states).flatMap (outCase U v a.channel) ++ c!"\n  default:\n    " ++
        logged U v c!"info"
          (c!"\"Output \" << value << \" on " ++ a.channel.string ++ c!" in unexpected state \" << stateName() << \".\"") ++
        c!"\n    end(rtcg::Status::OFF_SCRIPT);\n  }\n"))
    (hentry : ∀ s, ∃ t, call c!"state" (.obj (.state s)) = done t ∧
      c!"\n\nvoid StateMachine::" ++ stateEntry U s.id ++ c!"()\n{\n  state_ = " ++ stateEnum U s.id ++ c!";\n" ++ t ++ c!"\n}" =
        entry U v s) :
    walk (data U) call Trees.baseStmCpp ⟨.obj (.mainCtx date name m tc ctx), [([], .obj (.mainCtx date name m tc ctx))]⟩ =
      done (stmClass U v m tc s.id ++ stmBodies U v m tc s.id) := by
  walking [Trees.baseStmCpp, H.ctorParams, H.timeoutArgs, H.delayArgs, H.acceptedArgs]
  rw [walk_list (fun a : AggregateSet =>
    c!"\n  void " ++ callbackName a.channel.name ++ c!"(const " ++ channelMsgType U a.channel.name ++ c!" msg);") ?he ?hb]
  case he => rfl
  case hb =>
    intro a _ n
    walking []
  walking [first_index U m s ss hs, H.fields]
  rw [walk_list (fun s : State => c!"\n  void " ++ stateEntry U s.id ++ c!"();") ?he ?hb]
  case he => rfl
  case hb =>
    intro a _ n
    walking []
  have hacc' : (bif tc.hasIn then emit c!"\n\nvoid StateMachine::inputAcceptedCallback("
        (emit (Spec.CppText.acceptedArgs v) (emit c!")\n{" (andThen (call c!"in_callback" (ofStateMap tc.inMerged)) (done c!"}"))))
      else done []) =
      done (if tc.hasIn then inputAcceptedCallback U v tc.inMerged else []) := by
    cases h : tc.hasIn with
    | false => rfl
    | true =>
      walking [hacc h, inputAcceptedCallback]
      rfl
  walking [H.ctorParams, init_field m s ss hs, H.handles, H.log, H.endLog, H.end_, H.timeoutArgs, H.delayArgs, H.acceptedArgs, hacc']
  rw [walk_list (outCallback U v) ?he ?hb]
  case he => rfl
  case hb =>
    intro a _ n
    walking [hout, outCallback]
    rfl
  walking []
  rw [walk_list (entry U v) ?he ?hb]
  case he => rfl
  case hb =>
    intro s _ n
    obtain ⟨t, h1, h2⟩ := hentry s
    walking [h1]
    rw [← h2]
    simp only [List.append_assoc]
  walking [stmClass, stmBodies, ctor, helpers, timeoutCallback, initialDelayCallback, logged]
  rfl

theorem entry_walk (U : Unicode) (v : Variant) (call : Str → Val → Out) (date name m tc ctx) (H : Hooks U v date name m tc ctx call)
    (hbody : call c!"main_body.cpp.tmpl" (.obj (.mainCtx date name m tc ctx)) = done (mainBody U v tc ctx)) (vars) :
    walk (data U) call Trees.baseEntryCpp ⟨.obj (.mainCtx date name m tc ctx), vars⟩ = done (mainFunction U v name tc ctx) := by
  walking [Trees.baseEntryCpp, H.mainArgs, H.preInit, H.ctorArgs, H.init, H.log, H.endLog, H.cleanup, hbody, mainFunction, logged]
  rfl

/-! ### a whole template set -/

variable {U : Unicode}

theorem execute_get {V : Type} {D : Data V} {set : GoMap Str Node} {name : Str} {n : Node} (h : GoMap.get? set name = some n) (d : Nat)
    (v : V) : execute D set (d + 1) name v = walk D (execute D set d) n ⟨v, [([], v)]⟩ := by
  rw [execute, h]

/-- The templates that are the same in both variants -/
structure Base (set : GoMap Str Node) : Prop where
  base : GoMap.get? set c!"base.cpp.tmpl" = some Trees.baseBaseCpp
  entry : GoMap.get? set c!"entry.cpp.tmpl" = some Trees.baseEntryCpp
  inCallbackCpp : GoMap.get? set c!"in_callback.cpp.tmpl" = some Trees.baseInCallbackCpp
  includes : GoMap.get? set c!"includes.cpp.tmpl" = some Trees.baseIncludesCpp
  outCallbackCpp : GoMap.get? set c!"out_callback.cpp.tmpl" = some Trees.baseOutCallbackCpp
  stateEntryCpp : GoMap.get? set c!"state_entry.cpp.tmpl" = some Trees.baseStateEntryCpp
  stateMeta : GoMap.get? set c!"state_meta.cpp.tmpl" = some Trees.baseStateMetaCpp
  stm : GoMap.get? set c!"stm.cpp.tmpl" = some Trees.baseStmCpp
  inCallback : GoMap.get? set c!"in_callback" = some Trees.baseInCallback
  outCallback : GoMap.get? set c!"out_callback" = some Trees.baseOutCallback
  state : GoMap.get? set c!"state" = some Trees.baseState
  verdict : GoMap.get? set c!"verdict.cpp.tmpl" = some Trees.baseVerdictCpp
  verdictDump : GoMap.get? set c!"verdict_dump" = some Trees.baseVerdictDump
  main : GoMap.get? set c!"main.cpp.tmpl" = some Trees.baseMainCpp

theorem base_animate : Base Trees.animateSet := by constructor <;> rfl

theorem base_ros : Base Trees.rosSet := by constructor <;> rfl

section whole

variable {v : Variant} {date name : Str} {m : Stm} {tc : TransitionContext} {ctx : CppConfig.Context} {set : GoMap Str Node}

/-- stm.cpp.tmpl -/
theorem stm_execute (B : Base set) (d : Nat) (H : ∀ d', Hooks U v date name m tc ctx (execute (data U) set (d' + 4))) (s : State)
    (ss : List State) (hs : m.states = s :: ss) (hm : tc.hasIn = true → ∀ e ∈ tc.inMerged, e.2 ≠ []) :
    execute (data U) set (d + 7) c!"stm.cpp.tmpl" (.obj (.mainCtx date name m tc ctx)) =
      done (stmClass U v m tc s.id ++ stmBodies U v m tc s.id) := by
  rw [execute_get B.stm]
  refine stm_walk U v _ date name m tc ctx (H _) s ss hs ?_ ?_ ?_
  · intro h
    rw [execute_get B.inCallback]
    walking [Trees.baseInCallback]
    rw [execute_get B.inCallbackCpp, inCallback_walk U v _ (H _).toLogs _ (hm h), andThen_done, emit_done, List.append_nil]
    simp only [List.append_assoc]
  · intro a
    rw [execute_get B.outCallback]
    walking [Trees.baseOutCallback]
    rw [execute_get B.outCallbackCpp, outCallback_walk U v _ (H _).toLogs, andThen_done, emit_done, List.append_nil]
    simp only [List.append_assoc]
  · intro s
    obtain ⟨h1, h2⟩ := stateEntry_walk U v (execute (data U) set (d + 4)) (H _).toLogs s (H _).input
    refine ⟨_, ?_, h1⟩
    rw [execute_get B.state]
    walking [Trees.baseState]
    rw [execute_get B.stateEntryCpp]
    generalize hw : walk (data U) (execute (data U) set (d + 4)) Trees.baseStateEntryCpp _ = w at h1 h2
    obtain ⟨w1, w2⟩ := w
    subst h2
    walking []

/-- main.cpp.tmpl -/
theorem main_execute (B : Base set) (d : Nat) (H : ∀ d', Hooks U v date name m tc ctx (execute (data U) set (d' + 4))) (s : State)
    (ss : List State) (hs : m.states = s :: ss) (hm : tc.hasIn = true → ∀ e ∈ tc.inMerged, e.2 ≠ [])
    (hbody : ∀ d', execute (data U) set (d' + 4) c!"main_body.cpp.tmpl" (.obj (.mainCtx date name m tc ctx)) =
      done (mainBody U v tc ctx)) :
    execute (data U) set (d + 9) c!"main.cpp.tmpl" (.obj (.mainCtx date name m tc ctx)) =
      done (mainText U v date name m tc ctx s.id) := by
  have hinc : execute (data U) set (d + 7) c!"includes.cpp.tmpl" (.obj (.mainCtx date name m tc ctx)) = done (includes v ctx) := by
    rw [execute_get B.includes]
    exact includes_walk U v _ date name m tc ctx (H _).systemIncludes _
  have hver : execute (data U) set (d + 7) c!"verdict.cpp.tmpl" (.list ((GoSet.values m.tests).map .str)) =
      done (Spec.CppText.verdict U v (GoSet.values m.tests)) := by
    rw [execute_get B.verdict]
    refine verdict_walk U v _ (H _).toLogs _ _ ?_
    rw [execute_get B.verdictDump]
    exact verdictDump_walk U v _ (H _).toLogs _ _
  have hmeta : execute (data U) set (d + 7) c!"state_meta.cpp.tmpl" (.list (m.states.map (fun s => .obj (.state s)))) =
      done (Spec.CppText.stateMeta U m.states) := by
    rw [execute_get B.stateMeta]
    exact stateMeta_walk U _ _ _
  have hent : execute (data U) set (d + 7) c!"entry.cpp.tmpl" (.obj (.mainCtx date name m tc ctx)) =
      done (mainFunction U v name tc ctx) := by
    rw [execute_get B.entry]
    exact entry_walk U v _ date name m tc ctx (H _) (hbody _) _
  rw [execute_get B.main]
  walking [Trees.baseMainCpp]
  rw [execute_get B.base]
  walking [Trees.baseBaseCpp, hinc, (H (d + 3)).constants, hver, hmeta, stm_execute B d H s ss hs hm, hent, mainText]

end whole

/-! ### the variants -/

section variants

variable {date name : Str} {m : Stm} {tc : TransitionContext} {ctx : CppConfig.Context}

theorem logs_animate (d : Nat) : Logs U .animate (execute (data U) Trees.animateSet (d + 1)) where
  log s := by
    rw [execute_get (by rfl : _ = some Trees.animateLog)]
    walking [Trees.animateLog]
    rfl
  endLog := by
    rw [execute_get (by rfl : _ = some Trees.animateEndLog)]
    walking [Trees.animateEndLog, endLog]

theorem logs_ros (d : Nat) : Logs U .ros (execute (data U) Trees.rosSet (d + 1)) where
  log s := by
    rw [execute_get (by rfl : _ = some Trees.rosLog)]
    walking [Trees.rosLog]
    rfl
  endLog := by
    rw [execute_get (by rfl : _ = some Trees.rosEndLog)]
    walking [Trees.rosEndLog, endLog]

theorem hooks_animate (d : Nat) : Hooks U .animate date name m tc ctx (execute (data U) Trees.animateSet (d + 4)) where
  toLogs := logs_animate _
  systemIncludes := by rw [execute_get (by rfl : _ = some Trees.animateSystemIncludes)]; rfl
  constants := by rw [execute_get (by rfl : _ = some Trees.animateConstants)]; rfl
  mainArgs := by rw [execute_get (by rfl : _ = some Trees.animateMainArgs)]; rfl
  preInit := by rw [execute_get (by rfl : _ = some Trees.animatePreInit)]; rfl
  ctorArgs := by rw [execute_get (by rfl : _ = some Trees.animateStmCtorArgs)]; rfl
  init := by rw [execute_get (by rfl : _ = some Trees.animatePreInit)]; rfl
  cleanup := by rw [execute_get (by rfl : _ = some Trees.baseCleanup)]; rfl
  ctorParams := by rw [execute_get (by rfl : _ = some Trees.animateStmCtorParams)]; rfl
  fields := by rw [execute_get (by rfl : _ = some Trees.animateStmFields)]; rfl
  handles := by rw [execute_get (by rfl : _ = some Trees.animateStmCtor)]; rfl
  end_ := by rw [execute_get (by rfl : _ = some Trees.animateStmEnd)]; rfl
  timeoutArgs := by rw [execute_get (by rfl : _ = some Trees.animateTimeoutCallbackArgs)]; rfl
  delayArgs := by rw [execute_get (by rfl : _ = some Trees.animateInitialDelayCallbackArgs)]; rfl
  acceptedArgs := by rw [execute_get (by rfl : _ = some Trees.animateInCallbackArgs)]; rfl
  input c t := by
    rw [execute_get (by rfl : _ = some Trees.animateInput)]
    walking [Trees.animateInput, (logs_animate (d + 2)).log, (logs_animate (d + 2)).endLog]
    rw [sendInput, if_neg (by decide), logged]
    simp only [List.append_assoc]

theorem topic_ros (d : Nat) (o : Obj) (c : Channel) (h : field (.obj o) c!"Channel" = .ok (.obj (.channel c))) :
    execute (data U) Trees.rosSet (d + 1) c!"topic_name" (.obj o) = done (topicName U c) := by
  rw [execute_get (by rfl : _ = some Trees.rosTopicName)]
  walking [Trees.rosTopicName, h]
  rfl

theorem publisher_ros (d : Nat) (o : Obj) (c : Channel) (h : field (.obj o) c!"Channel" = .ok (.obj (.channel c))) :
    execute (data U) Trees.rosSet (d + 2) c!"publisher_name" (.obj o) = done (publisherName U c) := by
  rw [execute_get (by rfl : _ = some Trees.rosPublisherName)]
  walking [Trees.rosPublisherName, topic_ros _ o c h]
  rfl

theorem subscriber_ros (d : Nat) (o : Obj) (c : Channel) (h : field (.obj o) c!"Channel" = .ok (.obj (.channel c))) :
    execute (data U) Trees.rosSet (d + 2) c!"subscriber_name" (.obj o) = done (subscriberName U c) := by
  rw [execute_get (by rfl : _ = some Trees.rosSubscriberName)]
  walking [Trees.rosSubscriberName, topic_ros _ o c h]
  rfl

theorem commas_map {α : Type} (f : α → Str) (l : List α) :
    commas (l.map f) = l.zipIdx.flatMap (fun p => (if p.2 = 0 then [] else c!", ") ++ f p.1) := by
  rw [commas, zipIdx_map, List.flatMap_map]

theorem hooks_ros (d : Nat) : Hooks U .ros date name m tc ctx (execute (data U) Trees.rosSet (d + 4)) where
  toLogs := logs_ros _
  systemIncludes := by rw [execute_get (by rfl : _ = some Trees.rosSystemIncludes)]; rfl
  constants := by rw [execute_get (by rfl : _ = some Trees.rosConstants)]; rfl
  mainArgs := by rw [execute_get (by rfl : _ = some Trees.rosMainArgs)]; rfl
  preInit := by
    rw [execute_get (by rfl : _ = some Trees.rosPreInit)]
    walking [Trees.rosPreInit]
    rw [walk_list (fun a : AggregateSet => c!"\n  auto " ++ publisherName U a.channel ++ c!" = nh.advertise<" ++
      channelValueType U a.channel.name ++ c!">(\"" ++ topicName U a.channel ++ c!"\", 1000);") ?he ?hb]
    case he => rfl
    case hb =>
      intro a _ n
      walking [publisher_ros (d + 1) (.agg a) a.channel rfl, topic_ros (d + 2) (.agg a) a.channel rfl]
    walking []
    rw [Spec.CppText.preInit, if_pos rfl]
    simp only [List.append_assoc]
  ctorArgs := by
    rw [execute_get (by rfl : _ = some Trees.rosStmCtorArgs), Trees.rosStmCtorArgs]
    rw [walk_listI (fun (a : AggregateSet) n => (if n = 0 then [] else c!", ") ++ publisherName U a.channel) ?he ?hb]
    case he => rfl
    case hb =>
      intro a _ n
      walking [publisher_ros (d + 1) (.agg a) a.channel rfl]
    walking []
    rw [Spec.CppText.ctorArgs, if_pos rfl, commas_map]
  init := by
    rw [execute_get (by rfl : _ = some Trees.rosInit)]
    walking [Trees.rosInit]
    rw [walk_list (fun a : AggregateSet => c!"\n  auto " ++ subscriberName U a.channel ++ c!" = nh.subscribe(\"" ++ topicName U a.channel ++
      c!"\", 10, &StateMachine::" ++ callbackName a.channel.name ++ c!", &stm);") ?he ?hb]
    case he => rfl
    case hb =>
      intro a _ n
      walking [subscriber_ros (d + 1) (.agg a) a.channel rfl, topic_ros (d + 2) (.agg a) a.channel rfl]
    walking []
    rw [Spec.CppText.init, if_pos rfl]
    simp only [List.append_assoc]
  cleanup := by rw [execute_get (by rfl : _ = some Trees.baseCleanup)]; rfl
  ctorParams := by
    rw [execute_get (by rfl : _ = some Trees.rosStmCtorParams), Trees.rosStmCtorParams]
    rw [walk_listI (fun (a : AggregateSet) n => (if n = 0 then [] else c!", ") ++ (c!"ros::Publisher " ++ publisherName U a.channel)) ?he ?hb]
    case he => rfl
    case hb =>
      intro a _ n
      walking [publisher_ros (d + 1) (.agg a) a.channel rfl]
    walking []
    rw [Spec.CppText.ctorParams, if_pos rfl, commas_map]
  fields := by
    rw [execute_get (by rfl : _ = some Trees.rosStmFields)]
    walking [Trees.rosStmFields]
    rw [walk_list (fun a : AggregateSet => c!"\n  ros::Publisher " ++ publisherName U a.channel ++ c!"_;") ?he ?hb]
    case he => rfl
    case hb =>
      intro a _ n
      walking [publisher_ros (d + 1) (.agg a) a.channel rfl]
    walking []
    rw [Spec.CppText.stmFields, if_pos rfl]
    simp only [List.append_assoc]
  handles := by
    rw [execute_get (by rfl : _ = some Trees.rosStmCtor)]
    walking [Trees.rosStmCtor]
    rw [walk_list (fun a : AggregateSet => c!"\n  " ++ publisherName U a.channel ++ c!"_ = " ++ publisherName U a.channel ++ c!";") ?he ?hb]
    case he => rfl
    case hb =>
      intro a _ n
      walking [publisher_ros (d + 1) (.agg a) a.channel rfl]
    walking []
    rw [Spec.CppText.installHandles, if_pos rfl]
    simp only [List.append_assoc]
  end_ := by rw [execute_get (by rfl : _ = some Trees.rosStmEnd)]; rfl
  timeoutArgs := by rw [execute_get (by rfl : _ = some Trees.rosTimeoutCallbackArgs)]; rfl
  delayArgs := by rw [execute_get (by rfl : _ = some Trees.rosInitialDelayCallbackArgs)]; rfl
  acceptedArgs := by rw [execute_get (by rfl : _ = some Trees.rosInCallbackArgs)]; rfl
  input c t := by
    rw [execute_get (by rfl : _ = some Trees.rosInput)]
    walking [Trees.rosInput, publisher_ros (d + 1) (.flat c t) c rfl]
    rw [sendInput, if_pos rfl]
    simp only [List.append_assoc]

theorem body_ros (d : Nat) : execute (data U) Trees.rosSet (d + 4) c!"main_body.cpp.tmpl" (.obj (.mainCtx date name m tc ctx)) =
    done (mainBody U .ros tc ctx) := by
  rw [execute_get (by rfl : _ = some Trees.rosMainBodyCpp)]; rfl

/-- The type of a channel is known -/
def Typed (ctx : CppConfig.Context) (ch : Str) : Prop := ∃ t ty, GoMap.get? ctx.channelTypes ch = some t ∧ t.base = some ty

/-- A `range` over a list -/
theorem walk_listElse {U : Unicode} {call : Str → Val → Out} {vs : List Str} {t : Term} {a b rest : Node} {env : Env Val} {α : Type}
    {pack : α → Val} (g : α → Str) {l : List α} (he : eval (data U) env t [] = .ok (.list (l.map pack))) (other : Str)
    (hb : ∀ x ∈ l, ∀ n, walk (data U) call a (bind env vs (.num n, pack x)) = done (g x))
    (ho : walk (data U) call b env = done other) :
    walk (data U) call (.range vs t a b rest) env = emit (if l = [] then other else l.flatMap g) (walk (data U) call rest env) := by
  rw [walk, he, ho]
  show andThen (bif (listItems pack l).isEmpty then done other else iterate _ (listItems pack l)) _ = _
  cases l with
  | nil => rfl
  | cons x l =>
    rw [if_neg (by simp)]
    have := rangeL (f := fun kv => walk (data U) call a (bind env vs kv)) pack g (x :: l) hb
    rw [bif_iterate] at this
    rw [this]; rfl

theorem body_animate (d : Nat) (ht : ∀ a ∈ tc.out, Typed ctx a.channel.name) :
    execute (data U) Trees.animateSet (d + 4) c!"main_body.cpp.tmpl" (.obj (.mainCtx date name m tc ctx)) =
      done (mainBody U .animate tc ctx) := by
  rw [execute_get (by rfl : _ = some Trees.animateMainBodyCpp)]
  walking [Trees.animateMainBodyCpp]
  rw [walk_listElse (fun a : AggregateSet =>
    c!"\n    std::cout << \"  " ++ a.channel.name ++ c!" (type: " ++ typeWord ctx a.channel.name ++ c!")\\n\";") ?he
    c!"\n    std::cout << \"  No outputs available for this test-case.\\n\";" ?hb ?ho]
  case he => rfl
  case ho => walking []
  case hb =>
    intro a ha n
    obtain ⟨t, ty, h1, h2⟩ := ht a ha
    walking [h1, Option.getD_some, h2, ofType, typeWord, Option.bind_some]
    rfl
  walking []
  rw [walk_list (fun a : AggregateSet =>
    c!"\n    else if (choice == \"" ++ a.channel.name ++ c!"\")\n    {\n      " ++ cppTypeOf ctx a.channel.name ++
    c!" in;\n      std::cin >> in;\n\n      stm." ++ callbackName a.channel.name ++ c!"(" ++ convertTo U a.channel.name ++
    c!"(in));\n    }") ?he ?hb]
  case he => rfl
  case hb =>
    intro a ha n
    obtain ⟨t, ty, h1, h2⟩ := ht a ha
    walking [h1, Option.getD_some, h2, ofType, cppTypeOf, Option.bind_some]
  walking []
  have h : mainBody U Variant.animate tc ctx = animateBody U tc ctx := if_neg (by decide)
  rw [h]
  walking [animateBody]

end variants

/-! ### convert.h -/

/-- What the templates of convert.h that differ between the variants write -/
structure ConvHooks (U : Unicode) (v : Variant) (call : Str → Val → Out) : Prop where
  type : ∀ t, call c!"type" (.obj (.rsType t)) = done (if v = Variant.ros then c!"std_msgs::String" else stdType t)
  msgType : ∀ s, call c!"msg_type" (.str s) = done (Spec.CppText.msgType U v s)
  convertFrom : ∀ t, call c!"convert_from" (.obj (.rsType t)) = done (fromBody v t)
  convertTo : ∀ t, call c!"convert_to" (.obj (.rsType t)) = done (toBody v t)

set_option maxRecDepth 8000 in
theorem convert_walk (U : Unicode) (v : Variant) (call : Str → Val → Out) (ctx : CppConfig.Context) (H : ConvHooks U v call)
    (ht : ∀ e ∈ ctx.channelTypes, ∃ ty, e.2.base = some ty) (vars) :
    walk (data U) call Trees.convConvertBaseH ⟨.obj (.convCtx ctx), vars⟩ = done (convertText U v ctx) := by
  rw [Trees.convConvertBaseH]
  walking []
  rw [walk_list includeLine ?he ?hb]
  case he => rfl
  case hb =>
    intro i _ n
    walking [includeLine]
  walking []
  rw [walk_map (fun e : Str × CppConfig.ChannelType => c!"\n#define " ++ channelValueType U e.1 ++ c!" " ++ valueType v e.2) ?he
    (items_types _) ?hb]
  case he => rfl
  case hb =>
    intro e he
    obtain ⟨ty, h⟩ := ht e he
    walking [h, ofType, H.type, valueType, Option.elim]
  walking []
  rw [walk_map (fun e : Str × CppConfig.ChannelType => c!"\n#define " ++ channelMsgType U e.1 ++ c!" " ++ msgType U v e.1) ?he
    (items_types _) ?hb]
  case he => rfl
  case hb =>
    intro e he
    walking [H.msgType]
  walking []
  rw [walk_map (fromFunction U v) ?he (items_types _) ?hb]
  case he => rfl
  case hb =>
    intro e he
    obtain ⟨ty, h⟩ := ht e he
    walking [h, ofType, H.convertFrom, fromFunction, bodyOr, Option.elim]
  walking []
  rw [walk_map (toFunction U v) ?he (items_types _) ?hb]
  case he => rfl
  case hb =>
    intro e he
    obtain ⟨ty, h⟩ := ht e he
    walking [h, ofType, H.convertTo, toFunction, bodyOr, Option.elim]
  walking [convertText]
  rfl

theorem conv_animate (d : Nat) : ConvHooks U .animate (execute (data U) Trees.animateConvSet (d + 1)) where
  type t := by rw [execute_get (by rfl : _ = some Trees.animateConvType)]; walking [Trees.animateConvType]
  msgType s := by rw [execute_get (by rfl : _ = some Trees.animateConvMsgType)]; walking [Trees.animateConvMsgType, Spec.CppText.msgType]
  convertFrom t := by rw [execute_get (by rfl : _ = some Trees.animateConvConvertFrom)]; rfl
  convertTo t := by rw [execute_get (by rfl : _ = some Trees.animateConvConvertTo)]; rfl

theorem conv_ros (d : Nat) : ConvHooks U .ros (execute (data U) Trees.rosConvSet (d + 1)) where
  type t := by rw [execute_get (by rfl : _ = some Trees.rosConvType)]; rfl
  msgType s := by rw [execute_get (by rfl : _ = some Trees.rosConvMsgType)]; walking [Trees.rosConvMsgType]; rfl
  convertFrom t := by
    rw [execute_get (by rfl : _ = some Trees.rosConvConvertFrom)]
    walking [Trees.rosConvConvertFrom, fromBody]
  convertTo t := by
    rw [execute_get (by rfl : _ = some Trees.rosConvConvertTo)]
    walking [Trees.rosConvConvertTo, toBody]

theorem convert_execute {set : GoMap Str Node} {v : Variant} {ctx : CppConfig.Context} (d : Nat)
    (h1 : GoMap.get? set c!"convert.h.tmpl" = some Trees.convConvertH)
    (h2 : GoMap.get? set c!"convert_base.h.tmpl" = some Trees.convConvertBaseH)
    (H : ∀ d', ConvHooks U v (execute (data U) set (d' + 1))) (ht : ∀ e ∈ ctx.channelTypes, ∃ ty, e.2.base = some ty) :
    execute (data U) set (d + 3) c!"convert.h.tmpl" (.obj (.convCtx ctx)) = done (convertText U v ctx) := by
  rw [execute_get h1]
  walking [Trees.convConvertH]
  rw [execute_get h2, convert_walk U v _ ctx (H _) ht]
  walking []

/-! ### the other files -/

theorem sortEntries_keys (tests : List Str) : (sortEntries (tests.map (fun k => (k, ())))).map (·.1) = sortedKeys tests := by
  rw [sortEntries, sortedKeys, List.map_mergeSort (s := fun a b : Str => decide (a ≤ b))]
  · rw [List.map_map]; congr 1; exact List.map_id' ..
  · intros; rfl

theorem sortEntries_flatMap (tests : List Str) (g : Str → Str) :
    (sortEntries (tests.map (fun k => (k, ())))).flatMap (fun e => g e.1) = (sortedKeys tests).flatMap g := by
  rw [← sortEntries_keys, List.flatMap_map]

theorem makefile_execute (d : Nat) (tests : List Str) (ctx : CppConfig.Context) :
    execute (data U) Trees.makeSet (d + 2) c!"Makefile.tmpl" (.obj (.makeCtx tests ctx)) = done (makefileText tests ctx) := by
  have hout : ∀ k, execute (data U) Trees.makeSet (d + 1) c!"output" (.str k) = done (Templates.makeOutput k) := by
    intro k; rw [execute_get (by rfl : _ = some Trees.makeOutput)]; walking [Trees.makeOutput]; rfl
  have hin : ∀ k, execute (data U) Trees.makeSet (d + 1) c!"reg_inputs" (.str k) = done (makeInputs k) := by
    intro k; rw [execute_get (by rfl : _ = some Trees.makeRegInputs)]; walking [Trees.makeRegInputs, makeInputs]
  have hi : execute (data U) Trees.makeSet (d + 1) c!"iconvert" (.obj (.makeCtx tests ctx)) = done (makeIConvert ctx.hasConversion) := by
    rw [execute_get (by rfl : _ = some Trees.makeIconvert)]; walking [Trees.makeIconvert, makeIConvert]
  have hc : execute (data U) Trees.makeSet (d + 1) c!"convert" (.obj (.makeCtx tests ctx)) = done (Templates.makeConvert ctx.hasConversion) := by
    rw [execute_get (by rfl : _ = some Trees.makeConvert)]; walking [Trees.makeConvert, Templates.makeConvert]
  have hf : execute (data U) Trees.makeSet (d + 1) c!"cxxflags" (.obj (.makeCtx tests ctx)) = done c!"-std=c++11 -Wall -Wextra" := by
    rw [execute_get (by rfl : _ = some Trees.makeCxxflags)]; rfl
  rw [execute_get (by rfl : _ = some Trees.makeMakefile)]
  walking [Trees.makeMakefile, hf]
  rw [walk_map (fun e : Str × Unit => c!" " ++ Templates.makeOutput e.1) ?he (items_tests _) ?hb]
  case he => rfl
  case hb =>
    intro e _
    walking [hout]
  walking []
  rw [walk_map (fun e : Str × Unit => makeRule ctx.hasConversion e.1) ?he (items_tests _) ?hb]
  case he => rfl
  case hb =>
    intro e _
    walking [hout, hin, hi, hc, makeRule]
  walking [sortEntries_flatMap tests (fun k => c!" " ++ Templates.makeOutput k), sortEntries_flatMap tests (makeRule ctx.hasConversion), makefileText]
  rfl

set_option maxRecDepth 8000 in
theorem cmake_execute (d : Nat) (p : Catkin.Package) :
    execute (data U) Trees.cmakeSet (d + 1) c!"CMakeLists.txt.tmpl" (.obj (.package p)) = done (cmakeText p) := by
  rw [execute_get (by rfl : _ = some Trees.cmakeCMakeListsTxt)]
  rw [Trees.cmakeCMakeListsTxt]
  walking []
  rw [walk_list (fun d => c!"\n    " ++ d) ?he ?hb]
  case he => rfl
  case hb =>
    intro e _ n
    walking []
  walking []
  rw [walk_list (fun d => c!"\n    " ++ d) ?he ?hb]
  case he => rfl
  case hb =>
    intro e _ n
    walking []
  walking [cmakeText, cmakeDepends]
  rfl

/-! ### failures -/

/-- An execution that fails -/
abbrev Fails (o : Out) : Prop := o.2 = throwErr .template

theorem fails_emit {s : Str} {o : Out} (h : Fails o) : Fails (emit s o) := h

theorem fails_first {o k : Out} (h : Fails o) : Fails (andThen o k) := by
  obtain ⟨s, r⟩ := o
  cases h
  rfl

theorem fails_second {o k : Out} (h : o.2 = .ok () ∨ Fails o) (hk : Fails k) : Fails (andThen o k) := by
  cases h with
  | inl h => obtain ⟨s, r⟩ := o; cases h; exact hk
  | inr h => exact fails_first h

theorem ok_or_andThen {o k : Out} (h : o.2 = .ok () ∨ Fails o) (hk : k.2 = .ok () ∨ Fails k) :
    (andThen o k).2 = .ok () ∨ Fails (andThen o k) := by
  cases h with
  | inl h => obtain ⟨s, r⟩ := o; cases h; exact hk
  | inr h => exact .inr (fails_first h)

/-- Iterations that all end in success or this failure do one of the two -/
theorem iterate_either {V : Type} {f : V × V → Out} (l : List (V × V)) (h : ∀ x ∈ l, (f x).2 = .ok () ∨ Fails (f x)) :
    (iterate f l).2 = .ok () ∨ Fails (iterate f l) := by
  induction l with
  | nil => exact .inl rfl
  | cons x l ih =>
    rw [iterate]
    exact ok_or_andThen (h x (List.mem_cons_self ..)) (ih (fun y hy => h y (List.mem_cons_of_mem _ hy)))

/-- They fail if one of them does -/
theorem iterate_fails {V : Type} {f : V × V → Out} (l : List (V × V)) (h : ∀ x ∈ l, (f x).2 = .ok () ∨ Fails (f x))
    (hx : ∃ x ∈ l, Fails (f x)) : Fails (iterate f l) := by
  induction l with
  | nil => obtain ⟨x, hx, _⟩ := hx; cases hx
  | cons x l ih =>
    rw [iterate]
    obtain ⟨y, hy, hf⟩ := hx
    cases hy with
    | head => exact fails_first hf
    | tail _ hy =>
      exact fails_second (h x (List.mem_cons_self ..)) (ih (fun z hz => h z (List.mem_cons_of_mem _ hz)) ⟨y, hy, hf⟩)

/-- A `range` over a map fails if one iteration does -/
theorem map_fails {U : Unicode} {call : Str → Val → Out} {vs : List Str} {t : Term} {a rest : Node} {env : Env Val} {α : Type}
    {x : Val} {pack : α → Val} {m : GoMap Str α} (he : eval (data U) env t [] = .ok x)
    (hi : items x = .ok (mapItems pack m))
    (hb : ∀ e ∈ m, (walk (data U) call a (bind env vs (.str e.1, pack e.2))).2 = .ok () ∨
      Fails (walk (data U) call a (bind env vs (.str e.1, pack e.2))))
    (hx : ∃ e ∈ m, Fails (walk (data U) call a (bind env vs (.str e.1, pack e.2)))) :
    Fails (walk (data U) call (.range vs t a .nil rest) env) := by
  rw [walk, he, walk]
  simp only [data_items]
  rw [hi]
  show Fails (andThen (bif (mapItems pack m).isEmpty then done [] else iterate _ (mapItems pack m)) _)
  rw [bif_iterate]
  refine fails_first (iterate_fails _ ?_ ?_)
  · intro kv hkv
    obtain ⟨e, he, rfl⟩ := List.mem_map.1 hkv
    exact hb e ((mem_sortEntries m e).1 he)
  · obtain ⟨e, he, hf⟩ := hx
    exact ⟨_, List.mem_map.2 ⟨e, (mem_sortEntries m e).2 he, rfl⟩, hf⟩

/-- A `range` over a map succeeds or fails if its iterations do -/
theorem map_second {U : Unicode} {call : Str → Val → Out} {vs : List Str} {t : Term} {a rest : Node} {env : Env Val} {α : Type}
    {x : Val} {pack : α → Val} {m : GoMap Str α} (he : eval (data U) env t [] = .ok x)
    (hi : items x = .ok (mapItems pack m))
    (hb : ∀ e ∈ m, (walk (data U) call a (bind env vs (.str e.1, pack e.2))).2 = .ok () ∨
      Fails (walk (data U) call a (bind env vs (.str e.1, pack e.2))))
    (hr : Fails (walk (data U) call rest env)) :
    Fails (walk (data U) call (.range vs t a .nil rest) env) := by
  rw [walk, he, walk]
  simp only [data_items]
  rw [hi]
  show Fails (andThen (bif (mapItems pack m).isEmpty then done [] else iterate _ (mapItems pack m)) _)
  rw [bif_iterate]
  refine fails_second (iterate_either _ ?_) hr
  intro kv hkv
  obtain ⟨e, he, rfl⟩ := List.mem_map.1 hkv
  exact hb e ((mem_sortEntries m e).1 he)

/-- A `range` over a list fails if one iteration does -/
theorem list_fails {U : Unicode} {call : Str → Val → Out} {vs : List Str} {t : Term} {a rest : Node} {env : Env Val} {α : Type}
    {pack : α → Val} {l : List α} (he : eval (data U) env t [] = .ok (.list (l.map pack)))
    (hb : ∀ x ∈ l, ∀ n, (walk (data U) call a (bind env vs (.num n, pack x))).2 = .ok () ∨
      Fails (walk (data U) call a (bind env vs (.num n, pack x))))
    (hx : ∃ x ∈ l, ∀ n, Fails (walk (data U) call a (bind env vs (.num n, pack x)))) :
    Fails (walk (data U) call (.range vs t a .nil rest) env) := by
  rw [walk, he, walk]
  show Fails (andThen (bif (listItems pack l).isEmpty then done [] else iterate _ (listItems pack l)) _)
  rw [bif_iterate]
  have hl : ∀ kv ∈ listItems pack l, ∃ x ∈ l, ∃ n, kv = (.num n, pack x) := by
    intro kv hkv
    rw [listItems, zipIdx_map, List.map_map] at hkv
    obtain ⟨e, he, rfl⟩ := List.mem_map.1 hkv
    exact ⟨e.1, List.fst_mem_of_mem_zipIdx he, e.2, rfl⟩
  refine fails_first (iterate_fails _ ?_ ?_)
  · intro kv hkv
    obtain ⟨x, hx, n, rfl⟩ := hl kv hkv
    exact hb x hx n
  · obtain ⟨x, hx, hf⟩ := hx
    obtain ⟨n, hn, rfl⟩ := List.mem_iff_getElem.1 hx
    refine ⟨(.num n, pack l[n]), ?_, hf n⟩
    rw [listItems, zipIdx_map, List.map_map]
    refine List.mem_map.2 ⟨(l[n], n), ?_, rfl⟩
    rw [List.mem_zipIdx_iff_getElem?]
    exact List.getElem?_eq_getElem hn

theorem stm_walk_empty (U : Unicode) (v : Variant) (call : Str → Val → Out) (date name m tc ctx) (H : Hooks U v date name m tc ctx call)
    (hs : m.states = []) :
    Fails (walk (data U) call Trees.baseStmCpp ⟨.obj (.mainCtx date name m tc ctx), [([], .obj (.mainCtx date name m tc ctx))]⟩) := by
  walking [Trees.baseStmCpp, H.ctorParams, H.timeoutArgs, H.delayArgs, H.acceptedArgs]
  rw [walk_list (fun a : AggregateSet =>
    c!"\n  void " ++ callbackName a.channel.name ++ c!"(const " ++ channelMsgType U a.channel.name ++ c!" msg);") ?he ?hb]
  case he => rfl
  case hb =>
    intro a _ n
    walking []
  walking [show Tmpl.call U c!"index" [.list (m.states.map (fun s => .obj (.state s))), .num 0] = .error (.err .template) by rw [hs]; rfl]
  rfl

theorem inCallback_walk_empty (U : Unicode) (v : Variant) (call : Str → Val → Out) (H : Logs U v call) (mm : GoMap Str (List Transition))
    (hm : ∃ e ∈ mm, e.2 = []) (vars) : Fails (walk (data U) call Trees.baseInCallbackCpp ⟨ofStateMap mm, vars⟩) := by
  walking [Trees.baseInCallbackCpp]
  refine fails_emit (map_fails rfl (items_stateMap _) ?_ ?_)
  · intro e he
    obtain ⟨k, ts⟩ := e
    cases ts with
    | nil =>
      right
      walking [H.log, H.endLog, show Tmpl.call U c!"index" [transList [], .num 0] = .error (.err .template) from rfl]
      rfl
    | cons t ts =>
      left
      walking [H.log, H.endLog, show Tmpl.call U c!"index" [transList (t :: ts), .num 0] = .ok (.obj (.transition t)) from rfl]
  · obtain ⟨⟨k, ts⟩, he, h⟩ := hm
    cases h
    refine ⟨_, he, ?_⟩
    walking [H.log, H.endLog, show Tmpl.call U c!"index" [transList [], .num 0] = .error (.err .template) from rfl]
    rfl

set_option maxRecDepth 2000 in
theorem stm_walk_accept (U : Unicode) (v : Variant) (call : Str → Val → Out) (date name m tc ctx) (H : Hooks U v date name m tc ctx call)
    (s : State) (ss : List State) (hs : m.states = s :: ss) (hin : tc.hasIn = true)
    (hacc : Fails (call c!"in_callback" (ofStateMap tc.inMerged))) :
    Fails (walk (data U) call Trees.baseStmCpp ⟨.obj (.mainCtx date name m tc ctx), [([], .obj (.mainCtx date name m tc ctx))]⟩) := by
  walking [Trees.baseStmCpp, H.ctorParams, H.timeoutArgs, H.delayArgs, H.acceptedArgs]
  rw [walk_list (fun a : AggregateSet =>
    c!"\n  void " ++ callbackName a.channel.name ++ c!"(const " ++ channelMsgType U a.channel.name ++ c!" msg);") ?he ?hb]
  case he => rfl
  case hb =>
    intro a _ n
    walking []
  walking [first_index U m s ss hs, H.fields]
  rw [walk_list (fun s : State => c!"\n  void " ++ stateEntry U s.id ++ c!"();") ?he ?hb]
  case he => rfl
  case hb =>
    intro a _ n
    walking []
  walking [H.ctorParams, init_field m s ss hs, H.handles, H.log, H.endLog, H.end_, H.timeoutArgs, H.delayArgs, H.acceptedArgs, hin]
  repeat first | exact fails_first (fails_emit (fails_emit (fails_emit (fails_first hacc)))) | apply fails_emit

section whole

variable {v : Variant} {date name : Str} {m : Stm} {tc : TransitionContext} {ctx : CppConfig.Context} {set : GoMap Str Node}

theorem stm_execute_empty (B : Base set) (d : Nat) (H : ∀ d', Hooks U v date name m tc ctx (execute (data U) set (d' + 4)))
    (hs : m.states = []) : Fails (execute (data U) set (d + 7) c!"stm.cpp.tmpl" (.obj (.mainCtx date name m tc ctx))) := by
  rw [execute_get B.stm]
  exact stm_walk_empty U v _ date name m tc ctx (H _) hs

theorem stm_execute_accept (B : Base set) (d : Nat) (H : ∀ d', Hooks U v date name m tc ctx (execute (data U) set (d' + 4)))
    (s : State) (ss : List State) (hs : m.states = s :: ss) (hin : tc.hasIn = true) (hm : ∃ e ∈ tc.inMerged, e.2 = []) :
    Fails (execute (data U) set (d + 7) c!"stm.cpp.tmpl" (.obj (.mainCtx date name m tc ctx))) := by
  rw [execute_get B.stm]
  refine stm_walk_accept U v _ date name m tc ctx (H _) s ss hs hin ?_
  rw [execute_get B.inCallback]
  walking [Trees.baseInCallback]
  rw [execute_get B.inCallbackCpp]
  exact fails_first (inCallback_walk_empty U v _ (H _).toLogs _ hm _)

/-- If the class or the function main cannot be written, neither can the file -/
theorem main_fails (B : Base set) (d : Nat) (H : ∀ d', Hooks U v date name m tc ctx (execute (data U) set (d' + 4)))
    (h : Fails (execute (data U) set (d + 7) c!"stm.cpp.tmpl" (.obj (.mainCtx date name m tc ctx))) ∨
      (execute (data U) set (d + 7) c!"stm.cpp.tmpl" (.obj (.mainCtx date name m tc ctx))).2 = .ok () ∧
      Fails (execute (data U) set (d + 6) c!"main_body.cpp.tmpl" (.obj (.mainCtx date name m tc ctx)))) :
    Fails (execute (data U) set (d + 9) c!"main.cpp.tmpl" (.obj (.mainCtx date name m tc ctx))) := by
  have hinc : execute (data U) set (d + 7) c!"includes.cpp.tmpl" (.obj (.mainCtx date name m tc ctx)) = done (includes v ctx) := by
    rw [execute_get B.includes]
    exact includes_walk U v _ date name m tc ctx (H _).systemIncludes _
  have hver : execute (data U) set (d + 7) c!"verdict.cpp.tmpl" (.list ((GoSet.values m.tests).map .str)) =
      done (Spec.CppText.verdict U v (GoSet.values m.tests)) := by
    rw [execute_get B.verdict]
    refine verdict_walk U v _ (H _).toLogs _ _ ?_
    rw [execute_get B.verdictDump]
    exact verdictDump_walk U v _ (H _).toLogs _ _
  have hmeta : execute (data U) set (d + 7) c!"state_meta.cpp.tmpl" (.list (m.states.map (fun s => .obj (.state s)))) =
      done (Spec.CppText.stateMeta U m.states) := by
    rw [execute_get B.stateMeta]
    exact stateMeta_walk U _ _ _
  rw [execute_get B.main]
  walking [Trees.baseMainCpp]
  rw [execute_get B.base]
  walking [Trees.baseBaseCpp, hinc, (H (d + 3)).constants, hver, hmeta]
  apply fails_first
  cases h with
  | inl h => repeat first | exact fails_first h | apply fails_emit
  | inr h =>
    have hent : Fails (execute (data U) set (d + 7) c!"entry.cpp.tmpl" (.obj (.mainCtx date name m tc ctx))) := by
      rw [execute_get B.entry]
      walking [Trees.baseEntryCpp, (H (d + 2)).mainArgs, (H (d + 2)).preInit, (H (d + 2)).ctorArgs, (H (d + 2)).init, (H (d + 2)).log, (H (d + 2)).endLog]
      repeat first | exact fails_first h.2 | apply fails_emit
    repeat first | exact fails_second (.inl h.1) (fails_emit (fails_first hent)) | apply fails_emit

end whole

theorem body_animate_fails {date name : Str} {m : Stm} {tc : TransitionContext} {ctx : CppConfig.Context} (d : Nat)
    (ht : ∃ a ∈ tc.out, ¬Typed ctx a.channel.name) :
    Fails (execute (data U) Trees.animateSet (d + 4) c!"main_body.cpp.tmpl" (.obj (.mainCtx date name m tc ctx))) := by
  rw [execute_get (by rfl : _ = some Trees.animateMainBodyCpp)]
  walking [Trees.animateMainBodyCpp]
  rw [walk_listElse (fun a : AggregateSet =>
    c!"\n    std::cout << \"  " ++ a.channel.name ++ c!" (type: " ++ typeWord ctx a.channel.name ++ c!")\\n\";") ?he
    c!"\n    std::cout << \"  No outputs available for this test-case.\\n\";" ?hb ?ho]
  case he => rfl
  case ho => walking []
  case hb =>
    intro a ha n
    walking [typeWord]
    cases h : GoMap.get? ctx.channelTypes a.channel.name with
    | none => rfl
    | some t => cases h' : t.base <;> walking [Option.getD_some, h', ofType, Option.bind_some] <;> rfl
  walking []
  have key : ∀ a : AggregateSet, (¬Typed ctx a.channel.name ∧ ofType ((GoMap.get? ctx.channelTypes a.channel.name).getD ⟨none, []⟩).base = .nil) ∨
      ∃ ty, ofType ((GoMap.get? ctx.channelTypes a.channel.name).getD ⟨none, []⟩).base = .obj (.rsType ty) := by
    intro a
    cases h : GoMap.get? ctx.channelTypes a.channel.name with
    | none => left; exact ⟨by (rintro ⟨t, ty, h1, _⟩; rw [h] at h1; cases h1), rfl⟩
    | some t =>
      cases h' : t.base with
      | none =>
        left
        refine ⟨?_, by rw [Option.getD_some, h']; rfl⟩
        rintro ⟨t', ty, h1, h2⟩
        rw [h] at h1; cases h1
        rw [h'] at h2; cases h2
      | some ty => right; exact ⟨ty, by rw [Option.getD_some, h']; rfl⟩
  repeat first
    | refine list_fails (pack := fun a => Val.obj (.agg a)) rfl ?_ ?_
    | apply fails_emit
  · intro a _ n
    rcases key a with ⟨_, h⟩ | ⟨ty, h⟩
    · right; walking [h]; rfl
    · left; walking [h]
  · obtain ⟨a, ha, hn⟩ := ht
    refine ⟨a, ha, ?_⟩
    intro n
    rcases key a with ⟨_, h⟩ | ⟨ty, h⟩
    · walking [h]; rfl
    · exfalso
      apply hn
      cases h1 : GoMap.get? ctx.channelTypes a.channel.name with
      | none => rw [h1] at h; cases h
      | some t =>
        rw [h1] at h
        cases h2 : t.base with
        | none => rw [Option.getD_some, h2] at h; cases h
        | some ty' => exact ⟨t, ty', h1, h2⟩

/-! ### convert.h -/

set_option maxRecDepth 8000 in
theorem convert_walk_fails (U : Unicode) (v : Variant) (call : Str → Val → Out) (ctx : CppConfig.Context) (H : ConvHooks U v call)
    (hn : (call c!"type" .nil).2 = .ok () ∨ Fails (call c!"type" .nil))
    (ht : ∃ e ∈ ctx.channelTypes, e.2.base = none) (vars) :
    Fails (walk (data U) call Trees.convConvertBaseH ⟨.obj (.convCtx ctx), vars⟩) := by
  rw [Trees.convConvertBaseH]
  walking []
  rw [walk_list includeLine ?he ?hb]
  case he => rfl
  case hb =>
    intro i _ n
    walking [includeLine]
  walking []
  refine fails_emit (fails_emit (fails_emit ?_))
  refine map_second (pack := fun t => .obj (.channelType t)) ?he (items_types ctx.channelTypes) ?_ ?_
  case he => rfl
  · intro e he
    have : (bif e.2.hasOverride then done e.2.override else andThen (call c!"type" (ofType e.2.base)) (done [])).2 = .ok () ∨
        Fails (bif e.2.hasOverride then done e.2.override else andThen (call c!"type" (ofType e.2.base)) (done [])) := by
      cases e.2.hasOverride with
      | true => exact .inl rfl
      | false =>
        cases e.2.base with
        | none => exact ok_or_andThen hn (.inl rfl)
        | some ty => exact ok_or_andThen (.inl (by rw [ofType, H.type])) (.inl rfl)
    walking []
    exact ok_or_andThen this (.inl rfl)
  · walking []
    apply fails_emit
    rw [walk_map (fun e : Str × CppConfig.ChannelType => c!"\n#define " ++ channelMsgType U e.1 ++ c!" " ++ msgType U v e.1) ?he
      (items_types _) ?hb]
    case he => rfl
    case hb =>
      intro e he
      walking [H.msgType]
    walking []
    refine fails_emit (fails_emit ?_)
    refine map_fails (pack := fun t => .obj (.channelType t)) ?he (items_types ctx.channelTypes) ?_ ?_
    case he => rfl
    · intro e he
      cases h : e.2.base with
      | none => right; walking [h, ofType]
      | some ty => left; walking [h, ofType, H.convertFrom]
    · obtain ⟨e, he, h⟩ := ht
      refine ⟨e, he, ?_⟩
      walking [h, ofType]

theorem convert_fails {set : GoMap Str Node} {v : Variant} {ctx : CppConfig.Context} (d : Nat)
    (h1 : GoMap.get? set c!"convert.h.tmpl" = some Trees.convConvertH)
    (h2 : GoMap.get? set c!"convert_base.h.tmpl" = some Trees.convConvertBaseH)
    (H : ∀ d', ConvHooks U v (execute (data U) set (d' + 1)))
    (hn : ∀ d', (execute (data U) set (d' + 1) c!"type" .nil).2 = .ok () ∨ Fails (execute (data U) set (d' + 1) c!"type" .nil))
    (ht : ∃ e ∈ ctx.channelTypes, e.2.base = none) :
    Fails (execute (data U) set (d + 3) c!"convert.h.tmpl" (.obj (.convCtx ctx))) := by
  rw [execute_get h1]
  walking [Trees.convConvertH]
  rw [execute_get h2]
  exact fails_first (convert_walk_fails U v _ ctx (H _) (hn _) ht _)

/-! ### rendering -/

/-- The first state of a machine that has one -/
def firstId (m : Stm) : Str := m.states.head?.elim [] (·.id)

theorem typed_iff (ctx : CppConfig.Context) (ch : Str) : (typeOf (GoMap.get? ctx.channelTypes ch)).toBool = true ↔ Typed ctx ch := by
  rw [typeOf, Typed]
  cases h : GoMap.get? ctx.channelTypes ch with
  | none => simp [throwErr, Except.toBool]
  | some t => cases h' : t.base <;> simp [throwErr, Except.toBool, h']

theorem mainCpp_ok (v : Variant) (m : Stm) (tc : TransitionContext) (ctx : CppConfig.Context) :
    mainCpp v m tc ctx = .ok () ↔ m.states ≠ [] ∧ (tc.hasIn = true → ∀ e ∈ tc.inMerged, e.2 ≠ []) ∧
      (v = Variant.animate → ∀ a ∈ tc.out, Typed ctx a.channel.name) := by
  rw [mainCpp]
  by_cases h1 : m.states.length = 0
  · simp [List.length_eq_zero_iff.1 h1, throwErr]
  · rw [if_neg h1]
    have h1' : m.states ≠ [] := fun h => h1 (by rw [h]; rfl)
    by_cases h2 : (tc.hasIn && tc.inMerged.any (fun sts => sts.2.length = 0)) = true
    · rw [if_pos h2]
      constructor
      · intro h; cases h
      · intro ⟨_, h, _⟩
        rw [Bool.and_eq_true, List.any_eq_true] at h2
        obtain ⟨h3, e, he, h4⟩ := h2
        exact absurd (List.length_eq_zero_iff.1 (of_decide_eq_true h4)) (h h3 e he)
    · rw [if_neg h2]
      have h2' : tc.hasIn = true → ∀ e ∈ tc.inMerged, e.2 ≠ [] := by
        intro h3 e he h4
        apply h2
        rw [Bool.and_eq_true, List.any_eq_true]
        exact ⟨h3, e, he, by rw [h4]; rfl⟩
      by_cases h3 : (decide (v = Variant.animate) && tc.out.any (fun a => !(typeOf (GoMap.get? ctx.channelTypes a.channel.name)).toBool)) = true
      · rw [if_pos h3]
        constructor
        · intro h; cases h
        · intro ⟨_, _, h⟩
          rw [Bool.and_eq_true, List.any_eq_true] at h3
          obtain ⟨h4, a, ha, h5⟩ := h3
          rw [(typed_iff ctx a.channel.name).2 (h (of_decide_eq_true h4) a ha)] at h5
          cases h5
      · rw [if_neg h3]
        refine ⟨fun _ => ⟨h1', h2', ?_⟩, fun _ => rfl⟩
        intro h4 a ha
        rw [← typed_iff]
        apply Classical.byContradiction
        intro h5
        apply h3
        rw [Bool.and_eq_true, List.any_eq_true]
        exact ⟨decide_eq_true h4, a, ha, by rw [Bool.not_eq_true] at h5; rw [h5]; rfl⟩

theorem mainCpp_cases (v : Variant) (m : Stm) (tc : TransitionContext) (ctx : CppConfig.Context) :
    mainCpp v m tc ctx = .ok () ∨ mainCpp v m tc ctx = throwErr .template := by
  unfold mainCpp
  split
  · exact .inr rfl
  · split
    · exact .inr rfl
    · split
      · exact .inr rfl
      · exact .inl rfl

theorem depth : ∃ d, maxDepth = d + 9 := ⟨99991, rfl⟩

theorem executeSet_some (U : Unicode) (set : GoMap Str Node) (name : Str) (o : Obj) :
    executeSet U (some set) name o = execute (data U) set maxDepth name (.obj o) := rfl

theorem render_main (U : Unicode) (date : Str) (v : Variant) (name : Str) (m : Stm) (tc : TransitionContext) (ctx : CppConfig.Context) :
    render U date (.mainCpp v name m tc ctx) = executeSet U (mainSet v) c!"main.cpp.tmpl" (.mainCtx date name m tc ctx) := by rw [render]

theorem render_convert (U : Unicode) (date : Str) (v : Variant) (ctx : CppConfig.Context) :
    render U date (.convertH v ctx) = executeSet U (convertSet v) c!"convert.h.tmpl" (.convCtx ctx) := by rw [render]


theorem main_render (U : Unicode) (date : Str) (v : Variant) (hv : v = .animate ∨ v = .ros) (name : Str) (m : Stm)
    (tc : TransitionContext) (ctx : CppConfig.Context) (h : mainCpp v m tc ctx = .ok ()) :
    render U date (.mainCpp v name m tc ctx) = done (mainText U v date name m tc ctx (firstId m)) := by
  obtain ⟨h1, h2, h3⟩ := (mainCpp_ok v m tc ctx).1 h
  cases hs : m.states with
  | nil => exact absurd hs h1
  | cons s ss =>
    have hf : firstId m = s.id := by rw [firstId, hs]; rfl
    rw [hf]
    rcases hv with rfl | rfl
    · obtain ⟨d, hd⟩ := depth
      rw [render_main, Trees.animateSet_eq, executeSet_some, hd]
      exact main_execute base_animate _ (fun d => hooks_animate d) s ss hs h2 (fun d => body_animate d (h3 rfl))
    · obtain ⟨d, hd⟩ := depth
      rw [render_main, Trees.rosSet_eq, executeSet_some, hd]
      exact main_execute base_ros _ (fun d => hooks_ros d) s ss hs h2 (fun d => body_ros d)

theorem main_render_fails (U : Unicode) (date : Str) (v : Variant) (hv : v = .animate ∨ v = .ros) (name : Str) (m : Stm)
    (tc : TransitionContext) (ctx : CppConfig.Context) (h : mainCpp v m tc ctx ≠ .ok ()) :
    Fails (render U date (.mainCpp v name m tc ctx)) := by
  rw [Ne, mainCpp_ok] at h
  have key : ∀ {set : GoMap Str Node} (B : Base set) (d : Nat) (H : ∀ d', Hooks U v date name m tc ctx (execute (data U) set (d' + 4)))
      (hb : (v = Variant.animate ∧ ∃ a ∈ tc.out, ¬Typed ctx a.channel.name) →
        Fails (execute (data U) set (d + 6) c!"main_body.cpp.tmpl" (.obj (.mainCtx date name m tc ctx)))),
      Fails (execute (data U) set (d + 9) c!"main.cpp.tmpl" (.obj (.mainCtx date name m tc ctx))) := by
    intro set B d H hb
    cases hs : m.states with
    | nil => exact main_fails B d H (.inl (stm_execute_empty B d H hs))
    | cons s ss =>
      by_cases h2 : tc.hasIn = true → ∀ e ∈ tc.inMerged, e.2 ≠ []
      · refine main_fails B d H (.inr ⟨by rw [stm_execute B d H s ss hs h2], hb ?_⟩)
        apply Classical.byContradiction
        intro h3
        apply h
        refine ⟨by rw [hs]; simp, h2, ?_⟩
        intro hv a ha
        apply Classical.byContradiction
        intro h4
        exact h3 ⟨hv, a, ha, h4⟩
      · refine main_fails B d H (.inl ?_)
        have h3 : tc.hasIn = true := by
          apply Classical.byContradiction
          intro h3
          exact h2 (fun h => absurd h h3)
        refine stm_execute_accept B d H s ss hs h3 ?_
        apply Classical.byContradiction
        intro h4
        apply h2
        intro _ e he h5
        exact h4 ⟨e, he, h5⟩
  rcases hv with rfl | rfl
  · obtain ⟨d, hd⟩ := depth
    rw [render_main, Trees.animateSet_eq, executeSet_some, hd]
    exact key base_animate _ (fun d => hooks_animate d) (fun h => body_animate_fails _ h.2)
  · obtain ⟨d, hd⟩ := depth
    rw [render_main, Trees.rosSet_eq, executeSet_some, hd]
    exact key base_ros _ (fun d => hooks_ros d) (fun h => absurd h.1 (by decide))

theorem convertH_ok (ctx : CppConfig.Context) : convertH ctx = .ok () ↔ ∀ e ∈ ctx.channelTypes, ∃ ty, e.2.base = some ty := by
  rw [convertH]
  by_cases h : (ctx.channelTypes.all (fun ct => (typeOf (some ct.2)).toBool)) = true
  · rw [if_pos h]
    refine ⟨fun _ e he => ?_, fun _ => rfl⟩
    have := List.all_eq_true.1 h e he
    cases hb : e.2.base with
    | some ty => exact ⟨ty, rfl⟩
    | none => simp [typeOf, hb, throwErr, Except.toBool] at this
  · rw [if_neg h]
    refine ⟨fun h => (nomatch h), fun h2 => absurd (List.all_eq_true.2 ?_) h⟩
    intro e he
    obtain ⟨ty, h3⟩ := h2 e he
    simp [typeOf, h3, Except.toBool]

theorem convert_render (U : Unicode) (date : Str) (v : Variant) (hv : v = .animate ∨ v = .ros) (ctx : CppConfig.Context)
    (h : convertH ctx = .ok ()) : render U date (.convertH v ctx) = done (convertText U v ctx) := by
  rw [convertH_ok] at h
  rcases hv with rfl | rfl
  · obtain ⟨d, hd⟩ := depth
    rw [render_convert, Trees.animateConvSet_eq, executeSet_some, hd]
    exact convert_execute (d + 6) rfl rfl (fun d => conv_animate d) h
  · obtain ⟨d, hd⟩ := depth
    rw [render_convert, Trees.rosConvSet_eq, executeSet_some, hd]
    exact convert_execute (d + 6) rfl rfl (fun d => conv_ros d) h

theorem convert_render_fails (U : Unicode) (date : Str) (v : Variant) (hv : v = .animate ∨ v = .ros) (ctx : CppConfig.Context)
    (h : convertH ctx ≠ .ok ()) : Fails (render U date (.convertH v ctx)) := by
  rw [Ne, convertH_ok] at h
  have h' : ∃ e ∈ ctx.channelTypes, e.2.base = none := by
    apply Classical.byContradiction
    intro h2
    apply h
    intro e he
    cases hb : e.2.base with
    | some ty => exact ⟨ty, rfl⟩
    | none => exact absurd ⟨e, he, hb⟩ h2
  rcases hv with rfl | rfl
  · obtain ⟨d, hd⟩ := depth
    rw [render_convert, Trees.animateConvSet_eq, executeSet_some, hd]
    refine convert_fails (d + 6) rfl rfl (fun d => conv_animate d) (fun d => .inr ?_) h'
    rw [execute_get (by rfl : _ = some Trees.animateConvType)]
    rfl
  · obtain ⟨d, hd⟩ := depth
    rw [render_convert, Trees.rosConvSet_eq, executeSet_some, hd]
    refine convert_fails (d + 6) rfl rfl (fun d => conv_ros d) (fun d => .inl ?_) h'
    rw [execute_get (by rfl : _ = some Trees.rosConvType)]
    rfl

theorem makefile_render (U : Unicode) (date : Str) (tests : List Str) (ctx : CppConfig.Context) :
    render U date (.makefile tests ctx) = done (makefileText tests ctx) := by
  obtain ⟨d, hd⟩ := depth
  rw [render, Trees.makeSet_eq, executeSet_some, hd]
  exact makefile_execute (d + 7) _ _

theorem cmake_render (U : Unicode) (date : Str) (p : Catkin.Package) : render U date (.cmake p) = done (cmakeText p) := by
  obtain ⟨d, hd⟩ := depth
  rw [render, Trees.cmakeSet_eq, executeSet_some, hd]
  exact cmake_execute (d + 8) _

end Exec

end Tmpl

end Rtcg
