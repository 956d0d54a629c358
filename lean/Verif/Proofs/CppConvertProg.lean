import Verif.Proofs.CppConvertText
import Verif.Proofs.CppConvert
import Verif.Proofs.CppItems

/-
What convert.h adds to a program.
-/

namespace Rtcg

namespace Spec

namespace Cpp

open Templates Rtcg.Cpp Tmpl

namespace Conv

open Sem Tree

variable {U : Unicode} {v : Variant} {ctx : CppConfig.Context}

theorem facts_convert (U : Unicode) (v : Variant) (ctx : CppConfig.Context) : facts [] (convertItems U v ctx) =
    (sortEntries ctx.channelTypes).flatMap (fun e => (fromItem U v e).facts []) ++
    (sortEntries ctx.channelTypes).flatMap (fun e => (toItem U v e).facts []) := by
  unfold convertItems
  rw [facts_append]
  have h : ∀ (l : List (Str × CppConfig.ChannelType)) (f : Str × CppConfig.ChannelType → Item), (∀ a ∈ l, (f a).after [] = []) →
      (l.map f).foldl Item.after [] = [] := by
    intro l f hl
    induction l with
    | nil => rfl
    | cons a l ih =>
      rw [List.map_cons, List.foldl_cons, hl a (by simp)]
      exact ih fun b hb => hl b (List.mem_cons_of_mem _ hb)
  rw [h _ _ (fun _ _ => rfl), (facts_map [] _ _ (fun _ _ => rfl)).1, (facts_map [] _ _ (fun _ _ => rfl)).1]

/-- All that convert.h for animate declares are functions that return their argument -/
theorem convert_fact {f : Fact} (h : f ∈ facts [] (convertItems U .animate ctx)) :
    ∃ g t x, f = .fn [g] [(t, x)] (.cons (.retVal (.name [x])) .nil) ∧ defaults U ctx g = true := by
  rw [facts_convert, List.mem_append, List.mem_flatMap, List.mem_flatMap] at h
  rcases h with ⟨e, he, hf⟩ | ⟨e, he, hf⟩ <;> have he := (Exec.mem_sortEntries _ _).1 he
  · cases ho : e.2.hasOverride with
    | true => simp [fromItem, ho, Item.facts] at hf
    | false =>
      simp only [fromItem, ho, Bool.false_eq_true, if_false, Item.facts, List.mem_singleton] at hf
      exact ⟨_, _, _, hf, List.any_eq_true.2 ⟨e, he, by simp [ho]⟩⟩
  · cases ho : e.2.hasOverride with
    | true => simp [toItem, ho, Item.facts] at hf
    | false =>
      simp only [toItem, ho, Bool.false_eq_true, if_false, Item.facts, List.mem_singleton] at hf
      exact ⟨_, _, _, hf, List.any_eq_true.2 ⟨e, he, by simp [ho]⟩⟩

/-- and for every channel without an override there are two -/
theorem fact_convert {g : Str} (h : defaults U ctx g = true) : ∃ ps b, Fact.fn [g] ps b ∈ facts [] (convertItems U v ctx) := by
  obtain ⟨e, he, h2⟩ := List.any_eq_true.1 h
  simp only [Bool.and_eq_true, Bool.not_eq_true', Bool.or_eq_true, decide_eq_true_eq] at h2
  obtain ⟨ho, h2⟩ := h2
  have he := (Exec.mem_sortEntries _ _).2 he
  rw [facts_convert]
  rcases h2 with rfl | rfl
  · refine ⟨[(⟨true, [channelMsgType U e.1], []⟩, c!"msg")], stmtsOf (fromStmts v e.2),
      List.mem_append_left _ (List.mem_flatMap.2 ⟨e, he, ?_⟩)⟩
    simp only [fromItem, ho, Bool.false_eq_true, if_false, Item.facts]
    exact List.mem_singleton.2 rfl
  · refine ⟨[({ baseTy e.2 with const := true }, c!"value")], stmtsOf (toStmts v e.2),
      List.mem_append_right _ (List.mem_flatMap.2 ⟨e, he, ?_⟩)⟩
    simp only [toItem, ho, Bool.false_eq_true, if_false, Item.facts]
    exact List.mem_singleton.2 rfl

/-- With overrides for all channels, convert.h only declares -/
theorem facts_overridden (h : ∀ e ∈ ctx.channelTypes, e.2.hasOverride = true) : facts [] (convertItems U v ctx) = [] := by
  have hm : ∀ e ∈ sortEntries ctx.channelTypes, e.2.hasOverride = true := fun e he => h e ((Exec.mem_sortEntries _ _).1 he)
  rw [facts_convert]
  simp only [List.append_eq_nil_iff, List.flatMap_eq_nil_iff]
  exact ⟨fun e he => by simp [fromItem, hm e he, Item.facts], fun e he => by simp [toItem, hm e he, Item.facts]⟩

theorem head_default {g : Str} (h : defaults U ctx g = true) : g.head? = some 't' ∨ g.head? = some 'f' := by
  obtain ⟨e, he, h2⟩ := List.any_eq_true.1 h
  simp only [Bool.and_eq_true, Bool.not_eq_true', Bool.or_eq_true, decide_eq_true_eq] at h2
  rcases h2.2 with rfl | rfl
  · exact .inr rfl
  · exact .inl rfl

theorem fresh {S : Src} {g : Str} (h : g.head? = some 't' ∨ g.head? = some 'f') : S.prog.fn [g] = none := by
  have hne : ∀ u : Str, u.head? ≠ some 't' → u.head? ≠ some 'f' → g ≠ u := by
    intro u h1 h2 e
    subst e
    rcases h with h | h
    · exact h1 h
    · exact h2 h
  refine S.fn_other ?_ ?_ ?_ ?_ ?_ ?_ <;> simp only [List.head?_cons, ne_eq, Option.some.injEq, List.cons.injEq, and_true] <;>
    exact hne _ (by decide) (by decide)

theorem fn_shape {C : Prog} (h : ∀ f ∈ C, ∃ g t x, f = .fn [g] [(t, x)] (.cons (.retVal (.name [x])) .nil)) (q : List Str) :
    (C.fn q = none ∧ ∀ ps b, Fact.fn q ps b ∉ C) ∨ ∃ t x, C.fn q = some ([(t, x)], .cons (.retVal (.name [x])) .nil) := by
  induction C with
  | nil => exact .inl ⟨rfl, by simp⟩
  | cons f C ih =>
    obtain ⟨g, t, x, rfl⟩ := h f (by simp)
    by_cases hq : [g] = q
    · refine .inr ⟨t, x, ?_⟩
      unfold Prog.fn
      rw [List.findSome?_cons]
      simp only [hq, if_true]
    · have e : Prog.fn (.fn [g] [(t, x)] (.cons (.retVal (.name [x])) .nil) :: C) q = Prog.fn C q := by
        unfold Prog.fn
        rw [List.findSome?_cons]
        simp only [if_neg hq]
      rw [e]
      rcases ih (fun f hf => h f (List.mem_cons_of_mem _ hf)) with ⟨h1, h2⟩ | h1
      · refine .inl ⟨h1, fun ps b hm => ?_⟩
        rcases List.mem_cons.1 hm with hm | hm
        · cases hm; exact hq rfl
        · exact h2 _ _ hm
      · exact .inr h1

/-- A program, and convert.h for animate -/
theorem adds (S : Src) (ctx : CppConfig.Context) : Adds (defaults S.U ctx) S.prog (facts [] (convertItems S.U .animate ctx) ++ S.prog) := by
  have hsh := fun q => fn_shape (C := facts [] (convertItems S.U .animate ctx))
    (fun f hf => by obtain ⟨g, t, x, h, _⟩ := convert_fact hf; exact ⟨g, t, x, h⟩) q
  refine ⟨fun g hg => ?_, fun g hg => fresh (head_default hg), fun q hq => ?_, fun q => ?_, fun q => ?_, fun q => ?_, fun q => ?_, ?_,
    fun g hg => head_default hg⟩
  · obtain ⟨ps, b, hm⟩ := fact_convert (v := .animate) hg
    rcases hsh [g] with ⟨_, h⟩ | ⟨t, x, h⟩
    · exact absurd hm (h _ _)
    · exact ⟨t, x, by rw [fn_append, h]; rfl⟩
  · rcases hsh q with ⟨h, _⟩ | ⟨t, x, h⟩
    · rw [fn_append, h]; rfl
    · exfalso
      have : ∃ f ∈ facts [] (convertItems S.U .animate ctx), ∃ ps b, f = .fn q ps b := by
        unfold Prog.fn at h
        obtain ⟨f, hf, hf2⟩ := List.exists_of_findSome?_eq_some h
        cases f with
        | fn q' ps b =>
          simp only at hf2
          by_cases hq' : q' = q
          · subst hq'; exact ⟨_, hf, ps, b, rfl⟩
          · rw [if_neg hq'] at hf2; cases hf2
        | _ => cases hf2
      obtain ⟨f, hf, ps, b, rfl⟩ := this
      obtain ⟨g, t, x, e, hd⟩ := convert_fact hf
      cases e
      rw [show among (defaults S.U ctx) [g] = defaults S.U ctx g from rfl, hd] at hq
      cases hq
  · rw [isEnum_append, Src.isEnum_none (P := facts [] (convertItems S.U .animate ctx)) ?_, Bool.false_or]
    intro e ms hm; obtain ⟨_, _, _, h, _⟩ := convert_fact hm; cases h
  · rw [cls_append, Src.cls_none (P := facts [] (convertItems S.U .animate ctx)) ?_, Option.none_or]
    intro e ms hm; obtain ⟨_, _, _, h, _⟩ := convert_fact hm; cases h
  · rw [ownFields_append, Src.ownFields_none (P := facts [] (convertItems S.U .animate ctx)) ?_, List.nil_append]
    intro e ms _ hm; obtain ⟨_, _, _, h, _⟩ := convert_fact hm; cases h
  · rw [var_append, Src.var_none (P := facts [] (convertItems S.U .animate ctx)) ?_, Option.none_or]
    intro e ms _ hm; obtain ⟨_, _, _, h, _⟩ := convert_fact hm; cases h
  · rw [S.cls_prog, if_neg (by simp), if_neg (by simp), if_neg (by simp)]

theorem collect_convert (f : Scope → Item → List Sig) (U : Unicode) (v : Variant) (ctx : CppConfig.Context) :
    collect f [] (convertItems U v ctx) =
      (sortEntries ctx.channelTypes).flatMap (fun e => f [] (fromItem U v e)) ++ (sortEntries ctx.channelTypes).flatMap (fun e => f [] (toItem U v e)) := by
  unfold convertItems
  rw [collect_append, (facts_map [] _ _ (fun _ _ => rfl)).2, collect_map f [] _ _ (fun _ _ => rfl), collect_map f [] _ _ (fun _ _ => rfl)]

theorem sigs (U : Unicode) (v : Variant) {e : Str × CppConfig.ChannelType} {t : RsType} (h : e.2.base = some t) :
    (fromItem U v e).defines [] = (if e.2.hasOverride then [] else [fromSig U e.1 t]) ∧
    (toItem U v e).defines [] = (if e.2.hasOverride then [] else [toSig U e.1 t]) ∧
    (fromItem U v e).declares [] = (if e.2.hasOverride then [fromSig U e.1 t] else []) ∧
    (toItem U v e).declares [] = (if e.2.hasOverride then [toSig U e.1 t] else []) := by
  have hb : baseTy e.2 = cppType t := by
    unfold baseTy
    rw [h]
    rfl
  unfold fromItem toItem
  rw [hb]
  cases e.2.hasOverride <;> exact ⟨rfl, rfl, rfl, rfl⟩

/-- What convert.h defines and declares -/
theorem convert_sigs (v : Variant) (g : GoodConvert U ctx) (s : Sig) :
    (s ∈ collect Item.defines [] (convertItems U v ctx) ↔
      ∃ e ∈ ctx.channelTypes, ∃ t, e.2.base = some t ∧ e.2.hasOverride = false ∧ (s = fromSig U e.1 t ∨ s = toSig U e.1 t)) ∧
    (s ∈ collect Item.declares [] (convertItems U v ctx) ↔
      ∃ e ∈ ctx.channelTypes, ∃ t, e.2.base = some t ∧ e.2.hasOverride = true ∧ (s = fromSig U e.1 t ∨ s = toSig U e.1 t)) := by
  have hm : ∀ e, e ∈ sortEntries ctx.channelTypes ↔ e ∈ ctx.channelTypes := fun e => Exec.mem_sortEntries _ _
  rw [collect_convert, collect_convert]
  simp only [List.mem_append, List.mem_flatMap, hm]
  constructor
  · constructor
    · rintro (⟨e, he, hs⟩ | ⟨e, he, hs⟩) <;> obtain ⟨t, ht⟩ := (g.channels e he).2.2.2.2.2 <;> refine ⟨e, he, t, ht, ?_⟩
      · rw [(sigs U v ht).1] at hs
        cases ho : e.2.hasOverride <;> rw [ho] at hs
        · exact ⟨rfl, .inl (List.mem_singleton.1 hs)⟩
        · cases hs
      · rw [(sigs U v ht).2.1] at hs
        cases ho : e.2.hasOverride <;> rw [ho] at hs
        · exact ⟨rfl, .inr (List.mem_singleton.1 hs)⟩
        · cases hs
    · rintro ⟨e, he, t, ht, ho, rfl | rfl⟩
      · exact .inl ⟨e, he, by rw [(sigs U v ht).1, ho]; exact List.mem_singleton.2 rfl⟩
      · exact .inr ⟨e, he, by rw [(sigs U v ht).2.1, ho]; exact List.mem_singleton.2 rfl⟩
  · constructor
    · rintro (⟨e, he, hs⟩ | ⟨e, he, hs⟩) <;> obtain ⟨t, ht⟩ := (g.channels e he).2.2.2.2.2 <;> refine ⟨e, he, t, ht, ?_⟩
      · rw [(sigs U v ht).2.2.1] at hs
        cases ho : e.2.hasOverride <;> rw [ho] at hs
        · cases hs
        · exact ⟨rfl, .inl (List.mem_singleton.1 hs)⟩
      · rw [(sigs U v ht).2.2.2] at hs
        cases ho : e.2.hasOverride <;> rw [ho] at hs
        · cases hs
        · exact ⟨rfl, .inr (List.mem_singleton.1 hs)⟩
    · rintro ⟨e, he, t, ht, ho, rfl | rfl⟩
      · exact .inl ⟨e, he, by rw [(sigs U v ht).2.2.1, ho]; exact List.mem_singleton.2 rfl⟩
      · exact .inr ⟨e, he, by rw [(sigs U v ht).2.2.2, ho]; exact List.mem_singleton.2 rfl⟩

theorem split_perm {α β : Type} (l : List α) (f g : α → List β) (k : α → β)
    (h : ∀ a ∈ l, (f a = [k a] ∧ g a = []) ∨ (f a = [] ∧ g a = [k a])) : (l.flatMap f ++ l.flatMap g).Perm (l.map k) := by
  induction l with
  | nil => exact List.Perm.refl _
  | cons a l ih =>
    have ih := ih fun b hb => h b (List.mem_cons_of_mem _ hb)
    rw [List.flatMap_cons, List.flatMap_cons, List.map_cons]
    rcases h a (by simp) with ⟨h1, h2⟩ | ⟨h1, h2⟩ <;> rw [h1, h2]
    · exact List.Perm.cons _ ih
    · exact List.perm_middle.trans (List.Perm.cons _ ih)

theorem sigs_perm (v : Variant) (g : GoodConvert U ctx) :
    ((collect Item.defines [] (convertItems U v ctx) ++ collect Item.declares [] (convertItems U v ctx)).map (·.name)).Perm
      ((sortEntries ctx.channelTypes).map (fun e => [convertFrom U e.1]) ++ (sortEntries ctx.channelTypes).map (fun e => [convertTo U e.1])) := by
  have hm : ∀ e ∈ sortEntries ctx.channelTypes, ∃ t, e.2.base = some t :=
    fun e he => (g.channels e ((Exec.mem_sortEntries _ _).1 he)).2.2.2.2.2
  have p1 := split_perm (sortEntries ctx.channelTypes) (fun e => ((fromItem U v e).defines []).map (·.name))
    (fun e => ((fromItem U v e).declares []).map (·.name)) (fun e => [convertFrom U e.1]) (by
      intro e he
      obtain ⟨t, ht⟩ := hm e he
      rw [(sigs U v ht).1, (sigs U v ht).2.2.1]
      cases e.2.hasOverride
      · exact .inl ⟨rfl, rfl⟩
      · exact .inr ⟨rfl, rfl⟩)
  have p2 := split_perm (sortEntries ctx.channelTypes) (fun e => ((toItem U v e).defines []).map (·.name))
    (fun e => ((toItem U v e).declares []).map (·.name)) (fun e => [convertTo U e.1]) (by
      intro e he
      obtain ⟨t, ht⟩ := hm e he
      rw [(sigs U v ht).2.1, (sigs U v ht).2.2.2]
      cases e.2.hasOverride
      · exact .inl ⟨rfl, rfl⟩
      · exact .inr ⟨rfl, rfl⟩)
  rw [collect_convert, collect_convert]
  simp only [List.map_append, List.map_flatMap]
  rw [List.perm_iff_count] at p1 p2 ⊢
  intro x
  have := p1 x
  have := p2 x
  simp only [List.count_append] at *
  omega

theorem sigs_nodup (v : Variant) (g : GoodConvert U ctx) (hwf : GoMap.WF ctx.channelTypes)
    (hd : ∀ e ∈ ctx.channelTypes, ∀ e' ∈ ctx.channelTypes, convertTo U e.1 = convertTo U e'.1 → e.1 = e'.1) :
    ((collect Item.defines [] (convertItems U v ctx) ++ collect Item.declares [] (convertItems U v ctx)).map (·.name)).Nodup := by
  rw [(sigs_perm v g).nodup_iff, List.nodup_append]
  have hm : ∀ e, e ∈ sortEntries ctx.channelTypes ↔ e ∈ ctx.channelTypes := fun e => Exec.mem_sortEntries _ _
  have hk : ((sortEntries ctx.channelTypes).map (·.1)).Nodup := by
    have := (show (sortEntries ctx.channelTypes).Perm ctx.channelTypes from List.mergeSort_perm ..).map (·.1)
    rw [this.nodup_iff]
    exact hwf
  have inj : ∀ (f : Str → List Str), (∀ e ∈ ctx.channelTypes, ∀ e' ∈ ctx.channelTypes, f e.1 = f e'.1 → e.1 = e'.1) →
      ((sortEntries ctx.channelTypes).map (fun e => f e.1)).Nodup := by
    intro f hf
    rw [List.Nodup, List.pairwise_map] at hk ⊢
    refine hk.imp_of_mem ?_
    intro a b ha hb hne he
    exact hne (hf a ((hm a).1 ha) b ((hm b).1 hb) he)
  have hto : ∀ a b : Str, convertFrom U a = convertFrom U b → convertTo U a = convertTo U b := by
    intro a b e
    unfold convertFrom convert at e
    unfold convertTo convert
    rw [List.append_cancel_left e]
  refine ⟨inj (fun x => [convertFrom U x]) ?_, inj (fun x => [convertTo U x]) ?_, ?_⟩
  · intro e he e' he' h
    exact hd e he e' he' (hto _ _ (List.cons.inj h).1)
  · intro e he e' he' h
    exact hd e he e' he' (List.cons.inj h).1
  · intro a ha b hb
    obtain ⟨e, _, rfl⟩ := List.mem_map.1 ha
    obtain ⟨e', _, rfl⟩ := List.mem_map.1 hb
    intro h
    have h := congrArg List.head? (List.cons.inj h).1
    exact absurd (show some 'f' = some 't' from h) (by decide)

theorem balanced_convert (U : Unicode) (v : Variant) (ctx : CppConfig.Context) : balanced (convertItems U v ctx) [] = true := by
  have h : (convertItems U v ctx).all flat = true := by
    unfold convertItems
    rw [List.all_append, flat_map _ _ (fun _ => rfl), flat_map _ _ (fun _ => rfl)]
    rfl
  have := balanced_flat h [] []
  rw [List.append_nil] at this
  rw [this]
  rfl

end Conv

end Cpp

end Spec

end Rtcg
