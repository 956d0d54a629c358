import Verif.Proofs.CppSubst
import Verif.Proofs.CppPreMain
import Verif.Proofs.CppConvertProg

/-
The program of the generated files, with what they include, is that of their own texts with types in place of words.
-/

namespace Rtcg

namespace Spec

namespace Cpp

namespace Sub

open Sem Sem.Src Subst Templates Rtcg.Cpp Tmpl

variable {τ : Str → Option CType} {K : Str → Prop}

def substFact (τ : Str → Option CType) : Fact → Fact
  | .fn q ps b => .fn q (ps.map fun p => (substT τ p.1, p.2)) (substSs τ b)
  | .field c t x e => .field c (substT τ t) x (e.map (substE τ))
  | .var q t e => .var q (substT τ t) (e.map (substE τ))
  | f => f

def KFact (τ : Str → Option CType) (K : Str → Prop) : Fact → Prop
  | .fn _ _ b => KSs τ K b
  | .field _ t _ e => KT K t ∧ ∀ e', e = some e' → KE τ K e'
  | _ => True

theorem item_facts (sc : Scope) (i : Item) : (substItem τ i).facts sc = (i.facts sc).map (substFact τ) := by
  cases i with
  | fn t q ps b => cases b <;> rfl
  | var t x e => show [_] = [_]; by_cases h : sc.inClass = true <;> simp [h, substFact]
  | _ => rfl

theorem item_after (sc : Scope) (i : Item) : (substItem τ i).after sc = i.after sc := by cases i <;> rfl

theorem facts_subst (sc : Scope) (l : List Item) : facts sc (l.map (substItem τ)) = (facts sc l).map (substFact τ) := by
  induction l generalizing sc with
  | nil => rfl
  | cons i l ih => rw [List.map_cons, facts, facts, item_facts, item_after, ih, List.map_append]

theorem facts_k (sc : Scope) (l : List Item) (h : ∀ i ∈ l, KItem τ K i) : ∀ f ∈ facts sc l, KFact τ K f := by
  induction l generalizing sc with
  | nil => intro f hf; cases hf
  | cons i l ih =>
    intro f hf
    rw [facts] at hf
    rcases List.mem_append.1 hf with hf | hf
    · have hi := h i (by simp)
      cases i with
      | fn t q ps b =>
        cases b with
        | none => cases hf
        | some b => cases List.mem_singleton.1 hf; exact hi.2.2.2 b rfl
      | var t x e =>
        have := List.mem_singleton.1 hf
        subst this
        split
        · exact ⟨hi.1, hi.2.2⟩
        · trivial
      | clsOpen n b => cases List.mem_singleton.1 hf; trivial
      | enum n b => cases List.mem_singleton.1 hf; trivial
      | _ => cases hf
    · exact ih _ (fun i hi => h i (List.mem_cons_of_mem _ hi)) f hf

/-! ### lookups -/

theorem fn_map (P : Prog) (q : List Str) : Prog.fn (P.map (substFact τ)) q =
    (Prog.fn P q).map (fun d => (d.1.map (fun p => (substT τ p.1, p.2)), substSs τ d.2)) := by
  induction P with
  | nil => rfl
  | cons f P ih =>
    unfold Prog.fn at ih ⊢
    rw [List.map_cons, List.findSome?_cons, List.findSome?_cons]
    cases f with
    | fn q' ps b =>
      by_cases h : q' = q
      · simp [substFact, h]
      · simpa [substFact, h] using ih
    | _ => exact ih

theorem isEnum_map (P : Prog) (q : List Str) : Prog.isEnum (P.map (substFact τ)) q = Prog.isEnum P q := by
  unfold Prog.isEnum
  rw [List.any_map]
  congr 1
  funext f
  cases f <;> rfl

theorem cls_map (P : Prog) (q : List Str) : Prog.cls (P.map (substFact τ)) q = Prog.cls P q := by
  unfold Prog.cls
  rw [List.findSome?_map]
  congr 1
  funext f
  cases f <;> rfl

theorem var_map (P : Prog) (q : List Str) : Prog.var (P.map (substFact τ)) q = (Prog.var P q).map (Option.map (substE τ)) := by
  induction P with
  | nil => rfl
  | cons f P ih =>
    unfold Prog.var at ih ⊢
    rw [List.map_cons, List.findSome?_cons, List.findSome?_cons]
    cases f with
    | var q' t e =>
      by_cases h : q' = q
      · simp [substFact, h]
      · simpa [substFact, h] using ih
    | _ => exact ih

theorem ownFields_map (hk : ∀ w, K w → τ w = none) (P : Prog) (h : ∀ f ∈ P, KFact τ K f) (q : List Str) :
    Prog.ownFields (P.map (substFact τ)) q = (Prog.ownFields P q).map (fun f => (f.1, f.2.1, f.2.2.map (substE τ))) := by
  induction P with
  | nil => rfl
  | cons f P ih =>
    have ih := ih fun f hf => h f (List.mem_cons_of_mem _ hf)
    have hf := h f (by simp)
    unfold Prog.ownFields at ih ⊢
    rw [List.map_cons, List.filterMap_cons, List.filterMap_cons]
    cases f with
    | field c t x e =>
      have ht : substT τ t = t := substT_kept hk hf.1
      by_cases h : c = q
      · simp [substFact, h, ht, ih]
      · simpa [substFact, h] using ih
    | _ => exact ih

theorem fn_k {P : Prog} (h : ∀ f ∈ P, KFact τ K f) {q : List Str} {ps : List Param} {b : Stmts} (hf : Prog.fn P q = some (ps, b)) : KSs τ K b := by
  unfold Prog.fn at hf
  obtain ⟨f, hf, hf2⟩ := List.exists_of_findSome?_eq_some hf
  cases f with
  | fn q' ps' b' =>
    simp only at hf2
    by_cases hq' : q' = q
    · rw [if_pos hq'] at hf2
      cases hf2
      exact h _ hf
    · rw [if_neg hq'] at hf2; cases hf2
  | _ => cases hf2

theorem init_k {P : Prog} (h : ∀ f ∈ P, KFact τ K f) {q : List Str} {f : CType × Str × Option Expr} (hf : f ∈ Prog.ownFields P q) {e : Expr}
    (he : f.2.2 = some e) : KE τ K e := by
  unfold Prog.ownFields at hf
  obtain ⟨x, hx, h2⟩ := List.mem_filterMap.1 hf
  cases x with
  | field c t y i =>
    simp only at h2
    by_cases hc : c = q
    · rw [if_pos hc] at h2
      cases h2
      exact (h _ hx).2 e he
    · rw [if_neg hc] at h2; cases h2
  | _ => cases h2

/-! ### rtcg.h and rtcg.cpp -/

theorem rtcgH_same (h : τ c!"Status" = none) : (facts [] Tree.rtcgHItems).map (substFact τ) = facts [] Tree.rtcgHItems := by
  have : substT τ (Tree.ty [c!"Status"]) = Tree.ty [c!"Status"] := by unfold substT; show (match τ c!"Status" with | some s => _ | none => _) = _; rw [h]
  show [_, _, _, Fact.field _ (substT τ (Tree.ty [c!"Status"])) _ _] = _
  rw [this]
  rfl

theorem rtcgCpp_same : (facts [] Tree.rtcgCppItems).map (substFact τ) = facts [] Tree.rtcgCppItems := rfl

/-- The functions of rtcg.cpp -/
def rtcgFns : List Fact :=
  [.fn [c!"rtcg", c!"outstr"] [(Tree.ty [c!"rtcg", c!"Outcome"], c!"o")] Tree.outstrBody,
   .fn [c!"operator<<"] [(Tree.ostream, c!"stm"), (Tree.ty [c!"rtcg", c!"Outcome"], c!"o")] (Tree.shows [c!"rtcg", c!"outstr"]),
   .fn [c!"rtcg", c!"status", c!"explain"] [(Tree.ty [c!"rtcg", c!"Status"], c!"s")] Tree.explainBody,
   .fn [c!"operator<<"] [(Tree.ostream, c!"stm"), (Tree.ty [c!"rtcg", c!"Status"], c!"o")] (Tree.shows [c!"rtcg", c!"status", c!"explain"]),
   .fn [c!"rtcg", c!"status", c!"isRunning"] [(Tree.ty [c!"rtcg", c!"Status"], c!"s")] Tree.isRunningBody,
   .fn [c!"rtcg", c!"status", c!"exitCode"] [(Tree.ty [c!"rtcg", c!"Status"], c!"s")] Tree.exitCodeBody,
   .fn [c!"rtcg", c!"TestCase", c!"getStatus"] [] (Tree.stmtsOf [.retVal (Tree.nm c!"status_")])]

theorem rtcg_k (hs : ∀ w, Pre.safe w = true → K w) : (∀ f ∈ facts [] Tree.rtcgHItems, KFact τ K f) ∧ ∀ f ∈ facts [] Tree.rtcgCppItems, KFact τ K f := by
  have h1 := hs c!"Status" (by decide)
  constructor
  · intro f hf
    have : facts [] Tree.rtcgHItems = [.enum [c!"rtcg", c!"Outcome"] Tree.outcomeNames, .enum [c!"rtcg", c!"Status"] Tree.statusNames,
      .cls [c!"rtcg", c!"TestCase"] none,
      .field [c!"rtcg", c!"TestCase"] (Tree.ty [c!"Status"]) c!"status_" (some (.name [c!"Status", c!"WAIT_START"]))] := rfl
    rw [this] at hf
    simp only [List.mem_cons, List.not_mem_nil, or_false] at hf
    rcases hf with rfl | rfl | rfl | rfl
    · trivial
    · trivial
    · trivial
    · simp (config := { decide := true }) [KFact, KT, KE, Tree.ty, hs]
  · intro f hf
    have : facts [] Tree.rtcgCppItems = rtcgFns := rfl
    rw [this] at hf
    unfold rtcgFns at hf
    simp only [List.mem_cons, List.not_mem_nil, or_false] at hf
    rcases hf with rfl | rfl | rfl | rfl | rfl | rfl | rfl <;>
      simp (config := { decide := true }) [KFact, Tree.outstrBody, Tree.explainBody,
        Tree.isRunningBody, Tree.exitCodeBody, Tree.shows, Tree.saysCase, Tree.stmtsOf, Tree.nm, Tree.status, Tree.call, Tree.argsOf, KSs, KSt,
        KE, KS, KA, KTl, hs]

/-! ### all of it -/

theorem convert_fns {U : Unicode} {v : Variant} {ctx : CppConfig.Context} {f : Fact} (h : f ∈ facts [] (Tree.convertItems U v ctx)) :
    ∃ g ps b, f = .fn [g] ps b ∧ defaults U ctx g = true := by
  rw [Conv.facts_convert, List.mem_append, List.mem_flatMap, List.mem_flatMap] at h
  rcases h with ⟨e, he, hf⟩ | ⟨e, he, hf⟩ <;> have he := (Exec.mem_sortEntries _ _).1 he
  · cases ho : e.2.hasOverride with
    | true => simp [Tree.fromItem, ho, Item.facts] at hf
    | false =>
      simp only [Tree.fromItem, ho, Bool.false_eq_true, if_false, Item.facts, List.mem_singleton] at hf
      exact ⟨_, _, _, hf, List.any_eq_true.2 ⟨e, he, by simp [ho]⟩⟩
  · cases ho : e.2.hasOverride with
    | true => simp [Tree.toItem, ho, Item.facts] at hf
    | false =>
      simp only [Tree.toItem, ho, Bool.false_eq_true, if_false, Item.facts, List.mem_singleton] at hf
      exact ⟨_, _, _, hf, List.any_eq_true.2 ⟨e, he, by simp [ho]⟩⟩

theorem facts_rtcgCpp : facts [] Tree.rtcgCppItems = rtcgFns := rfl

theorem after_rtcgH : Tree.rtcgHItems.foldl Item.after [] = [] := rfl

theorem link_rtcg (X : List Item) : link (facts [] (Tree.rtcgHItems ++ X)) (facts [] (Tree.rtcgHItems ++ Tree.rtcgCppItems)) =
    facts [] Tree.rtcgHItems ++ facts [] X ++ facts [] Tree.rtcgCppItems := by
  rw [facts_append, facts_append, after_rtcgH]
  unfold link
  rw [List.filter_append]
  have h1 : (facts [] Tree.rtcgHItems).filter (fun f => isFn f || !(facts [] Tree.rtcgHItems ++ facts [] X).contains f) = [] := by
    rw [List.filter_eq_nil_iff]
    intro f hf
    have : isFn f = false := by
      have h2 : ∀ f ∈ facts [] Tree.rtcgHItems, isFn f = false := by
        intro f hf
        have : facts [] Tree.rtcgHItems = [.enum [c!"rtcg", c!"Outcome"] Tree.outcomeNames, .enum [c!"rtcg", c!"Status"] Tree.statusNames,
          .cls [c!"rtcg", c!"TestCase"] none,
          .field [c!"rtcg", c!"TestCase"] (Tree.ty [c!"Status"]) c!"status_" (some (.name [c!"Status", c!"WAIT_START"]))] := rfl
        rw [this] at hf
        simp only [List.mem_cons, List.not_mem_nil, or_false] at hf
        rcases hf with rfl | rfl | rfl | rfl <;> rfl
      exact h2 f hf
    have hc : (facts [] Tree.rtcgHItems ++ facts [] X).contains f = true := List.contains_iff_mem.2 (List.mem_append_left _ hf)
    rw [this, hc]
    decide
  have h2 : (facts [] Tree.rtcgCppItems).filter (fun f => isFn f || !(facts [] Tree.rtcgHItems ++ facts [] X).contains f) =
      facts [] Tree.rtcgCppItems := by
    rw [List.filter_eq_self]
    intro f hf
    have : isFn f = true := by
      rw [facts_rtcgCpp] at hf
      unfold rtcgFns at hf
      simp only [List.mem_cons, List.not_mem_nil, or_false] at hf
      rcases hf with rfl | rfl | rfl | rfl | rfl | rfl | rfl <;> rfl
    rw [this]
    rfl
  rw [h1, h2, List.nil_append]

theorem fn_rtcg_name {q : List Str} (h : Prog.fn (facts [] Tree.rtcgCppItems) q ≠ none) : q.head? = some c!"rtcg" ∨ q = [c!"operator<<"] := by
  refine Classical.byContradiction fun hn => h ?_
  have := fn_rtcg_none (q := q) (fun he => hn (.inl he)) (fun he => hn (.inr he))
  unfold rtcgProg at this
  rw [fn_append] at this
  exact (Option.or_eq_none_iff.1 this).2

theorem fn_main_none (S : Src) {q : List Str} (h : q.head? = some c!"rtcg" ∨ q = [c!"operator<<"]) :
    Prog.fn (mainFacts S.U S.v S.name S.m S.tc S.ctx S.first) q = none := by
  have hne : ∀ w : Str, w ≠ c!"rtcg" → w ≠ c!"operator<<" → q.head? ≠ some w := by
    rintro w h1 h2 e
    rcases h with h | h
    · rw [h] at e; exact h1 (Option.some.inj e).symm
    · rw [h] at e; exact h2 (Option.some.inj e).symm
  have h1 := hne c!"Verdict" (by decide) (by decide)
  have h2 := fn_sm_none (smFns S.U S.v S.m S.tc S.first) (hne Tree.SM (by decide) (by decide))
  have h3 : ¬ [c!"state", c!"name"] = q := by rintro rfl; exact hne c!"state" (by decide) (by decide) rfl
  have h4 : ¬ [c!"main"] = q := by rintro rfl; exact hne c!"main" (by decide) (by decide) rfl
  unfold mainFacts
  simp only [fn_append, Src.fn_const, Src.fn_cls, Src.fn_fields, Src.fn_smFields, Src.fn_enum, Src.fn_one, Option.none_or, Option.or_none,
    Src.fn_verdict_none _ _ _ h1, h2, if_neg h3, if_neg h4]

theorem convert_none {U : Unicode} {v : Variant} {ctx : CppConfig.Context} {q : List Str} (h : q.head? = some c!"rtcg" ∨ q = [c!"operator<<"]) :
    Prog.fn (facts [] (Tree.convertItems U v ctx)) q = none := by
  apply fn_none
  intro f hf e
  obtain ⟨x, hx, h'⟩ := List.mem_filterMap.1 hf
  obtain ⟨g, ps, b, rfl, hd⟩ := convert_fns hx
  cases h'
  have := Conv.head_default hd
  subst e
  rcases h with h | h
  · cases h
    rcases this with h | h <;> cases h
  · cases h
    rcases this with h | h <;> cases h

theorem only_fns {C : Prog} (h : ∀ f ∈ C, ∃ q ps b, f = .fn q ps b) (q : List Str) : Prog.isEnum C q = false ∧ Prog.cls C q = none ∧
    Prog.ownFields C q = [] ∧ Prog.var C q = none := by
  refine ⟨Src.isEnum_none ?_ q, Src.cls_none ?_ q, ?_, Src.var_none ?_ q⟩
  · intro e ms hm; obtain ⟨_, _, _, h⟩ := h _ hm; cases h
  · intro e ms hm; obtain ⟨_, _, _, h⟩ := h _ hm; cases h
  · unfold Prog.ownFields
    rw [List.filterMap_eq_nil_iff]
    intro f hf
    obtain ⟨_, _, _, rfl⟩ := h f hf
    rfl
  · intro e t ms hm; obtain ⟨_, _, _, h⟩ := h _ hm; cases h

theorem mapped_fns {C : Prog} (h : ∀ f ∈ C, ∃ q ps b, f = .fn q ps b) : ∀ f ∈ C.map (substFact τ), ∃ q ps b, f = .fn q ps b := by
  intro f hf
  obtain ⟨g, hg, rfl⟩ := List.mem_map.1 hf
  obtain ⟨q, ps, b, rfl⟩ := h g hg
  exact ⟨_, _, _, rfl⟩

theorem renames_of {C H X M : Prog} (hC : ∀ f ∈ C, ∃ q ps b, f = .fn q ps b) (hX : ∀ f ∈ X, ∃ q ps b, f = .fn q ps b)
    (hx : ∀ q, Prog.fn X q ≠ none → Prog.fn C q = none ∧ Prog.fn M q = none) (hH : ∀ q, Prog.fn H q = none)
    (kC : ∀ f ∈ C, KFact τ K f) (kH : ∀ f ∈ H, KFact τ K f) (kX : ∀ f ∈ X, KFact τ K f) (kM : ∀ f ∈ M, KFact τ K f)
    (sH : H.map (substFact τ) = H) (sX : X.map (substFact τ) = X) (hk : ∀ w, K w → τ w = none)
    (hb : τ c!"int" = none ∧ τ c!"unsigned int" = none) (hn : ∀ w s, τ w = some s → s.name ≠ []) :
    Renames τ K (C ++ ((H ++ X) ++ M)) (H ++ (C.map (substFact τ) ++ M.map (substFact τ)) ++ X) := by
  have kP : ∀ f ∈ C ++ ((H ++ X) ++ M), KFact τ K f := by
    intro f hf
    simp only [List.mem_append] at hf
    rcases hf with hf | (hf | hf) | hf
    · exact kC f hf
    · exact kH f hf
    · exact kX f hf
    · exact kM f hf
  refine ⟨fun q => ?_, fun q => ?_, fun q => ?_, fun q => ?_, fun q => ?_, fun q ps b h => fn_k kP h, fun q f hf e he => init_k kP hf he, hk, hb, hn⟩
  · have e : Prog.fn X q = (Prog.fn X q).map (fun d => (d.1.map (fun p => (substT τ p.1, p.2)), substSs τ d.2)) := by rw [← fn_map, sX]
    simp only [fn_append, fn_map, hH, Option.none_or]
    by_cases h : Prog.fn X q = none
    · rw [h]
      cases Prog.fn C q <;> cases Prog.fn M q <;> rfl
    · obtain ⟨h1, h2⟩ := hx q h
      rw [h1, h2]
      simpa using e
  · simp only [isEnum_append, isEnum_map, (only_fns hC q).1, (only_fns hX q).1, Bool.or_false, Bool.false_or]
  · simp only [cls_append, cls_map, (only_fns hC q).2.1, (only_fns hX q).2.1, Option.or_none, Option.none_or]
  · have e : Prog.ownFields H q = (Prog.ownFields H q).map (fun f => (f.1, f.2.1, f.2.2.map (substE τ))) := by rw [← ownFields_map hk H kH, sH]
    simp only [ownFields_append, ownFields_map hk C kC, ownFields_map hk M kM, (only_fns hC q).2.2.1, (only_fns hX q).2.2.1, List.append_nil,
      List.nil_append, List.map_nil, List.map_append, ← e]
  · have e : Prog.var H q = (Prog.var H q).map (Option.map (substE τ)) := by rw [← var_map, sH]
    simp only [var_append, var_map, (only_fns hC q).2.2.2, (only_fns hX q).2.2.2, Option.or_none, Option.none_or, Option.map_none]
    rw [Option.map_or, ← e]

theorem after_convert (U : Unicode) (v : Variant) (ctx : CppConfig.Context) : (Tree.convertItems U v ctx).foldl Item.after [] = [] := by
  unfold Tree.convertItems
  rw [List.foldl_append, (facts_map [] _ _ (fun _ _ => rfl)).2, (facts_map [] _ _ (fun _ _ => rfl)).2]

/-- The program that the two files make, with what they include, is that of their own texts with types in place of words. -/
theorem renames (S : Src) {ctx : CppConfig.Context} (h : Pre.Words S.U S.v τ K S.m S.tc S.first) (hk : ∀ w, K w → τ w = none)
    (hn : ∀ w s, τ w = some s → s.name ≠ [])
    (hb : ∀ e ∈ ctx.channelTypes, ∃ t, e.2.base = some t)
    (hm : ∀ e ∈ ctx.channelTypes, (∃ s, τ (channelMsgType S.U e.1) = some s) ∧ ∃ s, τ (channelValueType S.U e.1) = some s) :
    Renames τ K (facts [] (Tree.convertItems S.U S.v ctx) ++ S.prog)
      (link (facts [] (Tree.rtcgHItems ++ (Tree.convertItems S.U S.v ctx ++ Tree.mainItems S.U S.v S.name S.m S.tc S.ctx S.first).map (substItem τ)))
        (facts [] (Tree.rtcgHItems ++ Tree.rtcgCppItems))) := by
  have hmain : ∀ f ∈ mainFacts S.U S.v S.name S.m S.tc S.ctx S.first, KFact τ K f := by
    rw [← facts_main]
    exact facts_k _ _ (Pre.mainItems_k h S.name S.ctx)
  obtain ⟨hH, hX⟩ := rtcg_k (τ := τ) h.safe
  have hall : facts [] (Tree.convertItems S.U S.v ctx ++ Tree.mainItems S.U S.v S.name S.m S.tc S.ctx S.first) =
      facts [] (Tree.convertItems S.U S.v ctx) ++ mainFacts S.U S.v S.name S.m S.tc S.ctx S.first := by
    rw [facts_append, after_convert, facts_main]
  rw [link_rtcg, facts_subst, hall, List.map_append]
  refine renames_of ?_ ?_ ?_ (fun q => rfl) (facts_k _ _ (Pre.convertItems_k h hb hm)) hH hX hmain
    (rtcgH_same (hk _ (h.safe _ (by decide)))) rtcgCpp_same hk ⟨hk _ (h.safe _ (by decide)), hk _ (h.safe _ (by decide))⟩ hn
  · intro f hf
    obtain ⟨g, ps, b, rfl, _⟩ := convert_fns hf
    exact ⟨_, _, _, rfl⟩
  · intro f hf
    rw [facts_rtcgCpp] at hf
    unfold rtcgFns at hf
    simp only [List.mem_cons, List.not_mem_nil, or_false] at hf
    rcases hf with rfl | rfl | rfl | rfl | rfl | rfl | rfl <;> exact ⟨_, _, _, rfl⟩
  · intro q hq
    have := fn_rtcg_name hq
    exact ⟨convert_none this, fn_main_none S this⟩

end Sub

end Cpp

end Spec

end Rtcg
