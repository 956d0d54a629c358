import Verif.Proofs.CppProg
import Verif.Spec.CppHarness
import Mathlib.Data.List.Nodup

/-
The functions that main.cpp declares and defines, and its braces.
-/

namespace Rtcg

namespace Spec

namespace Cpp

namespace Sem

open Templates Rtcg.Cpp Tmpl Tree

/-! ### braces -/

/-- Opens and closes nothing -/
def flat : Item → Bool
  | .nsOpen _ => false
  | .nsClose => false
  | .clsOpen _ _ => false
  | .clsClose => false
  | _ => true

theorem balanced_flat {a : List Item} (h : a.all flat = true) (b : List Item) (st : List Bool) : balanced (a ++ b) st = balanced b st := by
  induction a with
  | nil => rfl
  | cons i a ih =>
    rw [List.all_cons, Bool.and_eq_true] at h
    cases i <;> first | exact ih h.2 | cases h.1

theorem flat_map {α : Type} (l : List α) (f : α → Item) (h : ∀ a, flat (f a) = true) : (l.map f).all flat = true := by
  rw [List.all_map, List.all_eq_true]
  exact fun a _ => h a

theorem flat_ite (b : Prop) [Decidable b] (l l' : List Item) (h : l.all flat = true) (h' : l'.all flat = true) :
    (if b then l else l').all flat = true := by
  split
  · exact h
  · exact h'

theorem balanced_verdict (U : Unicode) (v : Variant) (tests : List Str) (b : List Item) (st : List Bool) :
    balanced (verdictItems U v tests ++ b) st = balanced b st := by
  unfold verdictItems
  simp only [List.append_assoc, List.cons_append, List.nil_append]
  simp only [balanced]
  rw [balanced_flat (flat_map _ _ fun _ => rfl)]
  simp only [balanced]
  rw [balanced_flat (flat_map _ _ fun _ => rfl)]
  simp only [balanced, List.head?_cons, List.tail_cons, decide_true, Bool.true_and]
  rw [balanced_flat (flat_map _ _ fun _ => rfl)]

theorem balanced_class (U : Unicode) (v : Variant) (m : Stm) (tc : TransitionContext) (first : Str) (b : List Item) (st : List Bool) :
    balanced (classItems U v m tc first ++ b) st = balanced b st := by
  unfold classItems fields
  simp only [List.append_assoc, List.cons_append, List.nil_append]
  simp only [balanced]
  rw [balanced_flat (flat_ite _ _ _ rfl rfl), balanced_flat (flat_ite _ _ _ rfl rfl), balanced_flat (flat_map _ _ fun _ => rfl)]
  simp only [balanced]
  rw [balanced_flat (flat_ite _ _ _ (flat_map _ _ fun _ => rfl) rfl), balanced_flat (flat_map _ _ fun _ => rfl)]
  simp only [balanced, List.head?_cons, List.tail_cons, decide_true, Bool.true_and]

theorem balanced_main (U : Unicode) (v : Variant) (name : Str) (m : Stm) (tc : TransitionContext) (ctx : CppConfig.Context) (first : Str) :
    balanced (mainItems U v name m tc ctx first) [] = true := by
  unfold mainItems bodyItems constants
  simp only [List.append_assoc]
  rw [balanced_flat (flat_ite _ _ _ rfl rfl), balanced_verdict]
  unfold stateItems
  simp only [List.cons_append, List.nil_append]
  simp only [balanced, List.head?_cons, List.tail_cons, decide_true, Bool.true_and]
  rw [balanced_class]
  unfold ctorItem helperItems timeoutItem
  simp only [List.cons_append, List.nil_append, balanced]
  rw [balanced_flat (flat_ite _ _ _ rfl rfl), balanced_flat (flat_ite _ _ _ rfl rfl), balanced_flat (flat_map _ _ fun _ => rfl),
    balanced_flat (flat_map _ _ fun _ => rfl)]
  rfl

/-! ### declarations -/

theorem collect_append (f : Scope → Item → List Sig) (sc : Scope) (a b : List Item) :
    collect f sc (a ++ b) = collect f sc a ++ collect f (a.foldl Item.after sc) b := by
  induction a generalizing sc with
  | nil => rfl
  | cons i a ih => rw [List.cons_append, collect, collect, ih, List.foldl_cons, List.append_assoc]

theorem collect_map {α : Type} (f : Scope → Item → List Sig) (sc : Scope) (l : List α) (g : α → Item) (h : ∀ a ∈ l, (g a).after sc = sc) :
    collect f sc (l.map g) = l.flatMap (fun a => f sc (g a)) := by
  induction l with
  | nil => rfl
  | cons a l ih =>
    rw [List.map_cons, collect, h a (List.mem_cons_self ..), ih fun b hb => h b (List.mem_cons_of_mem _ hb), List.flatMap_cons]

theorem collect_ite (f : Scope → Item → List Sig) (sc : Scope) (b : Bool) (i : Item) :
    collect f sc (if b = true then [i] else []) = if b = true then f sc i else [] := by
  cases b <;> simp [collect]

theorem flatMap_nil {α β : Type} (l : List α) : l.flatMap (fun _ => ([] : List β)) = [] := by induction l <;> simp_all

/-- The methods of class StateMachine by what they take, as they are declared -/
def smSigs (U : Unicode) (v : Variant) (m : Stm) (tc : TransitionContext) : List Sig :=
  let sig : Option CType → Str → List Param → Sig := fun t f ps => ⟨[SM, f], t, ps.map (·.1)⟩
  [sig none SM (ctorParams U v tc), sig (some ⟨false, [c!"Verdict"], [c!"&"]⟩) c!"getVerdict" [],
   sig (some void) c!"timeoutCallback" (timerParams v)] ++
  (if tc.firstStateHasIn then [sig (some void) c!"initialDelayCallback" (timerParams v)] else []) ++
  (if tc.hasIn then [sig (some void) c!"inputAcceptedCallback" (acceptedParams v)] else []) ++
  tc.out.map (fun a => sig (some void) (callbackName a.channel.name) (outParams U a.channel)) ++
  m.states.map (fun s => sig (some void) (stateEntry U s.id) []) ++
  [sig (some ⟨true, [c!"char"], [c!"*"]⟩) c!"stateName" [], sig (some void) c!"end" [(ty [c!"rtcg", c!"Status"], c!"status")]]

def verdictSigs (tests : List Str) : List Sig :=
  ⟨[c!"Verdict", c!"dump"], some void, []⟩ :: tests.map (fun t => ⟨[c!"Verdict", t], some void, [outcomeTy]⟩)

theorem declares_verdict (U : Unicode) (v : Variant) (tests : List Str) :
    collect Item.declares [] (verdictItems U v tests) = verdictSigs tests ∧ collect Item.defines [] (verdictItems U v tests) = verdictSigs tests := by
  have a1 := (facts_map [(true, c!"Verdict")] tests (fun t => Item.fn (some void) [t] [(outcomeTy, c!"new_val")] none) (fun _ _ => rfl)).2
  have a2 := (facts_map [(true, c!"Verdict")] tests
    (fun t => Item.var outcomeTy (t ++ c!"_") (some (.name [c!"rtcg", c!"Outcome", c!"UNSET"]))) (fun _ _ => rfl)).2
  have e1 := fun f => collect_map f [(true, c!"Verdict")] tests (fun t => Item.fn (some void) [t] [(outcomeTy, c!"new_val")] none) (fun _ _ => rfl)
  have e2 := fun f => collect_map f [(true, c!"Verdict")] tests
    (fun t => Item.var outcomeTy (t ++ c!"_") (some (.name [c!"rtcg", c!"Outcome", c!"UNSET"]))) (fun _ _ => rfl)
  have e3 := fun f => collect_map f [] tests (fun t => Item.fn (some void) [c!"Verdict", t] [(outcomeTy, c!"new_val")]
    (some (stmtsOf [
      .ite (.eq c!"==" (nm (t ++ c!"_")) (nm c!"new_val")) .ret .skip,
      logged U v c!"info" (.str (c!"Test " ++ t ++ c!" is now ")) [nm c!"new_val", .str c!"; was ", nm (t ++ c!"_"), .str c!"."],
      .expr (.assign (nm (t ++ c!"_")) (nm c!"new_val"))]))) (fun _ _ => rfl)
  unfold verdictItems
  constructor
  · simp only [collect_append, collect, List.foldl_append, List.foldl_cons, List.foldl_nil, Item.after, List.nil_append, a1, a2, e1, e2, e3,
      List.dropLast_singleton, Item.declares, List.append_nil, Scope.path, List.map_nil, flatMap_nil]
    simp [verdictSigs, List.map_eq_flatMap]
  · simp only [collect_append, collect, List.foldl_append, List.foldl_cons, List.foldl_nil, Item.after, List.nil_append, a1, a2, e1, e2, e3,
      List.dropLast_singleton, Item.defines, List.append_nil, Scope.path, List.map_nil, flatMap_nil]
    simp [verdictSigs, List.map_eq_flatMap]

theorem declares_class (U : Unicode) (v : Variant) (m : Stm) (tc : TransitionContext) (first : Str) :
    collect Item.declares [] (classItems U v m tc first) = smSigs U v m tc ∧ collect Item.defines [] (classItems U v m tc first) = [] := by
  have a1 := (facts_map [(true, SM)] tc.out (fun a => Item.fn (some void) [callbackName a.channel.name] (outParams U a.channel) none)
    (fun _ _ => rfl)).2
  have a2 := (facts_map [(true, SM)] m.states (fun s => Item.fn (some void) [stateEntry U s.id] [] none) (fun _ _ => rfl)).2
  have a4 : ∀ (b : Bool) (i : Item), i.after [(true, SM)] = [(true, SM)] →
      (if b = true then [i] else []).foldl Item.after [(true, SM)] = [(true, SM)] := by
    intro b i h1
    cases b
    · rfl
    · simp [h1]
  have a5 := a4 tc.firstStateHasIn (.fn (some void) [c!"initialDelayCallback"] (timerParams v) none) rfl
  have a6 := a4 tc.hasIn (.fn (some void) [c!"inputAcceptedCallback"] (acceptedParams v) none) rfl
  have a7 : (fields U v tc).foldl Item.after [(true, SM)] = [(true, SM)] := by
    unfold fields
    split
    · exact (facts_map [(true, SM)] tc.in_ (fun a => Item.var publisherTy (publisherName U a.channel ++ c!"_") none) (fun _ _ => rfl)).2
    · rfl
  have e1 := fun f => collect_map f [(true, SM)] tc.out (fun a => Item.fn (some void) [callbackName a.channel.name] (outParams U a.channel) none)
    (fun _ _ => rfl)
  have e2 := fun f => collect_map f [(true, SM)] m.states (fun s => Item.fn (some void) [stateEntry U s.id] [] none) (fun _ _ => rfl)
  have e7 : ∀ f : Scope → Item → List Sig, (∀ t x e, f [(true, SM)] (.var t x e) = []) → collect f [(true, SM)] (fields U v tc) = [] := by
    intro f hf
    unfold fields
    split
    · rw [collect_map _ _ _ _ (fun _ _ => rfl)]
      simp only [hf, flatMap_nil]
    · rfl
  have e7a := e7 Item.declares (fun _ _ _ => rfl)
  have e7b := e7 Item.defines (fun _ _ _ => rfl)
  unfold classItems
  constructor
  · simp only [collect_append, collect, List.foldl_append, List.foldl_cons, List.foldl_nil, Item.after, List.nil_append, a1, a2, a5, a6, a7,
      e1, e2, e7a, collect_ite, List.dropLast_singleton, Item.declares, List.append_nil, Scope.path, List.map_nil]
    simp [smSigs, List.map_eq_flatMap]
  · simp only [collect_append, collect, List.foldl_append, List.foldl_cons, List.foldl_nil, Item.after, List.nil_append, a1, a2, a5, a6, a7,
      e1, e2, e7b, collect_ite, List.dropLast_singleton, Item.defines, List.append_nil, Scope.path, List.map_nil, flatMap_nil]
    simp

/-- The methods of class StateMachine by what they take, as they are defined -/
def smDefs (U : Unicode) (v : Variant) (m : Stm) (tc : TransitionContext) : List Sig :=
  let sig : Option CType → Str → List Param → Sig := fun t f ps => ⟨[SM, f], t, ps.map (·.1)⟩
  [sig none SM (ctorParams U v tc), sig (some ⟨false, [c!"Verdict"], [c!"&"]⟩) c!"getVerdict" [],
   sig (some ⟨true, [c!"char"], [c!"*"]⟩) c!"stateName" [], sig (some void) c!"end" [(ty [c!"rtcg", c!"Status"], c!"s")],
   sig (some void) c!"timeoutCallback" (timerParams v)] ++
  (if tc.firstStateHasIn then [sig (some void) c!"initialDelayCallback" (timerParams v)] else []) ++
  (if tc.hasIn then [sig (some void) c!"inputAcceptedCallback" (acceptedParams v)] else []) ++
  tc.out.map (fun a => sig (some void) (callbackName a.channel.name) (outParams U a.channel)) ++
  m.states.map (fun s => sig (some void) (stateEntry U s.id) [])

theorem declares_body (U : Unicode) (v : Variant) (m : Stm) (tc : TransitionContext) (first : Str) :
    collect Item.declares [] (bodyItems U v m tc first) = [] ∧ collect Item.defines [] (bodyItems U v m tc first) = smDefs U v m tc := by
  have a1 := (facts_map [] tc.out (outItem U v) (fun _ _ => rfl)).2
  have a2 := (facts_map [] m.states (entryItem U v) (fun _ _ => rfl)).2
  have a4 : ∀ (b : Bool) (i : Item), i.after [] = [] → (if b = true then [i] else []).foldl Item.after [] = [] := by
    intro b i h1
    cases b
    · rfl
    · simp [h1]
  have a5 := a4 tc.firstStateHasIn (delayItem U v first) rfl
  have a6 := a4 tc.hasIn (acceptedItem U v tc.inMerged) rfl
  have e1 := fun f => collect_map f [] tc.out (outItem U v) (fun _ _ => rfl)
  have e2 := fun f => collect_map f [] m.states (entryItem U v) (fun _ _ => rfl)
  have h1 : [ctorItem U v tc first].foldl Item.after [] = [] := rfl
  have h2 : (helperItems U v).foldl Item.after [] = [] := rfl
  have h3 : [timeoutItem U v].foldl Item.after [] = [] := rfl
  unfold bodyItems
  constructor
  · have d1 : collect Item.declares [] [ctorItem U v tc first] = [] := rfl
    have d2 : collect Item.declares [] (helperItems U v) = [] := rfl
    have d3 : collect Item.declares [] [timeoutItem U v] = [] := rfl
    have d4 : Item.declares [] (delayItem U v first) = [] := rfl
    have d5 : Item.declares [] (acceptedItem U v tc.inMerged) = [] := rfl
    have d6 : ∀ a, Item.declares [] (outItem U v a) = [] := fun _ => rfl
    have d7 : ∀ a, Item.declares [] (entryItem U v a) = [] := fun _ => rfl
    simp only [collect_append, collect_ite, List.foldl_append, h1, h2, h3, a5, a6, a1, a2, e1, e2, d1, d2, d3, d4, d5, d6, d7, flatMap_nil]
    simp
  · have d1 : collect Item.defines [] [ctorItem U v tc first] = [⟨[SM, SM], none, (ctorParams U v tc).map (·.1)⟩] := rfl
    have d2 : collect Item.defines [] (helperItems U v) = [⟨[SM, c!"getVerdict"], some ⟨false, [c!"Verdict"], [c!"&"]⟩, []⟩,
      ⟨[SM, c!"stateName"], some ⟨true, [c!"char"], [c!"*"]⟩, []⟩, ⟨[SM, c!"end"], some void, [ty [c!"rtcg", c!"Status"]]⟩] := rfl
    have d3 : collect Item.defines [] [timeoutItem U v] = [⟨[SM, c!"timeoutCallback"], some void, (timerParams v).map (·.1)⟩] := rfl
    have d4 : Item.defines [] (delayItem U v first) = [⟨[SM, c!"initialDelayCallback"], some void, (timerParams v).map (·.1)⟩] := rfl
    have d5 : Item.defines [] (acceptedItem U v tc.inMerged) = [⟨[SM, c!"inputAcceptedCallback"], some void, (acceptedParams v).map (·.1)⟩] := rfl
    have d6 : ∀ a, Item.defines [] (outItem U v a) = [⟨[SM, callbackName a.channel.name], some void, (outParams U a.channel).map (·.1)⟩] :=
      fun _ => rfl
    have d7 : ∀ a, Item.defines [] (entryItem U v a) = [⟨[SM, stateEntry U a.id], some void, []⟩] := fun _ => rfl
    simp only [collect_append, collect_ite, List.foldl_append, h1, h2, h3, a5, a6, a1, a2, e1, e2, d1, d2, d3, d4, d5, d6, d7]
    simp [smDefs, List.map_eq_flatMap]

theorem sigs_main (U : Unicode) (v : Variant) (name : Str) (m : Stm) (tc : TransitionContext) (ctx : CppConfig.Context) (first : Str) :
    collect Item.declares [] (mainItems U v name m tc ctx first) = verdictSigs (GoSet.values m.tests) ++ smSigs U v m tc ∧
    collect Item.defines [] (mainItems U v name m tc ctx first) = verdictSigs (GoSet.values m.tests) ++
      [⟨[c!"state", c!"name"], some ⟨true, [c!"char"], [c!"*"]⟩, [ty [c!"State"]]⟩] ++ smDefs U v m tc ++
      [⟨[c!"main"], some (ty [c!"int"]), (mainParams v).map (·.1)⟩] := by
  obtain ⟨_, v2⟩ := facts_verdict U v (GoSet.values m.tests)
  obtain ⟨_, c2⟩ := facts_class U v m tc first
  obtain ⟨_, b2⟩ := facts_body U v m tc first
  have k : ∀ f : Scope → Item → List Sig, (∀ t x e, f [] (.var t x e) = []) →
      collect f [] (constants v) = [] ∧ (constants v).foldl Item.after [] = [] := by
    intro f hf
    unfold constants
    split
    · simp [collect, hf, Item.after]
    · exact ⟨rfl, rfl⟩
  have k1 := k Item.declares (fun _ _ _ => rfl)
  have k2 := k Item.defines (fun _ _ _ => rfl)
  have s2 : (stateItems U m.states).foldl Item.after [] = [] := rfl
  unfold mainItems
  simp only [collect_append, List.foldl_append, k1, k2, v2, c2, b2, s2, declares_verdict, declares_class, declares_body]
  constructor
  · simp [stateItems, collect, Item.declares, Item.after, mainItem]
  · simp [stateItems, collect, Item.defines, Item.after, mainItem, Scope.path]

theorem smDefs_perm (U : Unicode) (v : Variant) (m : Stm) (tc : TransitionContext) : (smDefs U v m tc).Perm (smSigs U v m tc) := by
  rw [List.perm_iff_count]
  intro x
  unfold smDefs smSigs
  simp only [List.count_append, List.count_cons, List.count_nil, List.map_cons, List.map_nil]
  omega

theorem smSigs_names (U : Unicode) (v : Variant) (m : Stm) : ∃ l : List Str,
    (smSigs U v m (TransitionContext.make m)).map (·.name) = (SM :: l).map (fun f => [SM, f]) ∧ l.Sublist (classMembers U v m) := by
  refine ⟨[c!"getVerdict", c!"timeoutCallback"] ++
    (if (TransitionContext.make m).firstStateHasIn then [c!"initialDelayCallback"] else []) ++
    (if (TransitionContext.make m).hasIn then [c!"inputAcceptedCallback"] else []) ++
    (TransitionContext.make m).out.map (fun a => callbackName a.channel.name) ++
    m.states.map (fun s => stateEntry U s.id) ++ [c!"stateName", c!"end"], ?_, ?_⟩
  · unfold smSigs
    cases (TransitionContext.make m).firstStateHasIn <;> cases (TransitionContext.make m).hasIn <;>
      simp [Function.comp_def, SM]
  · unfold classMembers
    refine List.Sublist.append (List.Sublist.append ?_ (List.Sublist.refl _)) (List.Sublist.refl _)
    rw [List.append_assoc _ [c!"verdict_", c!"state_"]]
    exact List.sublist_append_left ..

theorem defines_nodup {U : Unicode} {v : Variant} {m : Stm} (h : GoodNames U v m) (name : Str) (ctx : CppConfig.Context) (first : Str) :
    ((collect Item.defines [] (mainItems U v name m (TransitionContext.make m) ctx first)).map (·.name)).Nodup := by
  obtain ⟨l, hl, hs⟩ := smSigs_names U v m
  have hl1 : (SM :: l).Nodup := by
    have := h.members
    rw [List.nodup_cons] at this ⊢
    refine ⟨fun hm => this.1 (List.mem_append.2 (.inr (hs.subset hm))), hs.nodup (List.nodup_append.1 this.2).2.1⟩
  have hsm : ((smDefs U v m (TransitionContext.make m)).map (·.name)).Nodup := by
    rw [((smDefs_perm U v m _).map _).nodup_iff, hl]
    exact hl1.map (by intro a b e; simpa using e)
  have hmem : ∀ q ∈ (smDefs U v m (TransitionContext.make m)).map (·.name), ∃ f, q = [SM, f] := by
    intro q hq
    rw [((smDefs_perm U v m _).map _).mem_iff, hl] at hq
    obtain ⟨f, _, rfl⟩ := List.mem_map.1 hq
    exact ⟨f, rfl⟩
  have hv : (verdictSigs (GoSet.values m.tests)).map (·.name) = (c!"dump" :: GoSet.values m.tests).map (fun f => [c!"Verdict", f]) := by
    unfold verdictSigs
    simp [Function.comp_def]
  have hvn : ((verdictSigs (GoSet.values m.tests)).map (·.name)).Nodup := by
    rw [hv]
    refine List.Nodup.map (by intro a b e; simpa using e) ?_
    have := h.verdict
    unfold verdictMembers at this
    simp only [List.nodup_append, List.nodup_cons, List.cons_append, List.nil_append] at this
    refine List.nodup_cons.2 ⟨?_, this.2.2.1⟩
    intro hm
    exact this.2.1 (List.mem_append.2 (.inl hm))
  have hvm : ∀ q ∈ (verdictSigs (GoSet.values m.tests)).map (·.name), ∃ f, q = [c!"Verdict", f] := by
    intro q hq
    rw [hv] at hq
    obtain ⟨f, _, rfl⟩ := List.mem_map.1 hq
    exact ⟨f, rfl⟩
  rw [(sigs_main U v name m _ ctx first).2]
  simp only [List.map_append, List.map_cons, List.map_nil]
  have hd : SM ≠ c!"Verdict" ∧ SM ≠ c!"state" ∧ c!"Verdict" ≠ c!"state" := by decide
  refine List.nodup_append.2 ⟨List.nodup_append.2 ⟨List.nodup_append.2 ⟨hvn, by simp, ?_⟩, hsm, ?_⟩, by simp, ?_⟩
  · intro a ha b hb
    obtain ⟨f, rfl⟩ := hvm a ha
    rw [List.mem_singleton.1 hb]
    intro e
    exact hd.2.2 (by injection e)
  · intro a ha b hb
    obtain ⟨f, rfl⟩ := hmem b hb
    rcases List.mem_append.1 ha with ha | ha
    · obtain ⟨g, rfl⟩ := hvm a ha
      intro e
      exact hd.1 (by injection e with e; exact e.symm)
    · rw [List.mem_singleton.1 ha]
      intro e
      exact hd.2.1 (by injection e with e; exact e.symm)
  · intro a ha b hb
    rw [List.mem_singleton.1 hb]
    rintro rfl
    rcases List.mem_append.1 ha with ha | ha
    · rcases List.mem_append.1 ha with ha | ha
      · obtain ⟨f, e⟩ := hvm _ ha
        exact absurd e (by simp)
      · exact absurd (List.mem_singleton.1 ha) (by decide)
    · obtain ⟨f, e⟩ := hmem _ ha
      exact absurd e (by simp)

end Sem

end Cpp

end Spec

end Rtcg
