import Verif.Proofs.JsonRead
import Verif.Proofs.Linear
import Verif.Props.Csv

/-
Properties C54-C57: suites as JSON, and the pipeline from traces to machines.
-/

namespace Rtcg

open Rtcg.Spec

/-! ### C54 -/

/-- C54: a test suite read back after writing is the same suite (up to the order of the map) exactly when all events in it
survive the text format and all outcomes are declared ones. -/
theorem C54_suite_survives (s : Validate.Suite) (hs : GoMap.WF s) :
    (∃ j s', Json.encodeSuite s = .ok j ∧ Json.decodeSuite j = .ok s' ∧ s.Perm s') ↔
      ∀ k r, (k, some r) ∈ s → Everywhere SavableNode r := by
  have h1 : (∀ k r, (k, some r) ∈ s → Everywhere SavableNode r) ↔
      ∀ x ∈ s, Json.Survives Json.encodeNodePtr Json.decodeNodePtr Eq x.2 := by
    constructor
    · rintro h ⟨k, o⟩ hx
      rw [Json.nodePtr_survives_iff]
      rintro r rfl
      exact h k r hx
    · intro h k r hx
      exact (Json.nodePtr_survives_iff _).1 (h _ hx) r rfl
  rw [h1, ← Json.map_survives hs]
  constructor
  · rintro ⟨j, s', h1, h2, h3⟩
    exact ⟨j, s', h1, h2, Json.sameMap_eq_iff.2 (GoMap.perm_equiv hs h3)⟩
  · rintro ⟨j, s', h1, h2, h3⟩
    exact ⟨j, s', h1, h2, GoMap.perm_of_equiv hs (Json.decodeMap_wf h2) (Json.sameMap_eq_iff.1 h3)⟩

/-- Writing a test suite never fails. -/
theorem C54_writing_total (s : Validate.Suite) : ∃ j, Json.encodeSuite s = .ok j := by
  rcases Json.writes_map (m := s) (enc := Json.encodeNodePtr) (f := .panic) (P := fun _ => True) (fun x _ => by
    refine Or.inl ⟨trivial, ?_⟩
    obtain ⟨k, o⟩ := x
    cases o with
    | none => exact ⟨_, rfl⟩
    | some r =>
      obtain ⟨fs, h⟩ := Json.encodeNode_total r
      exact ⟨_, h⟩) with ⟨_, h⟩ | ⟨h, _⟩
  · exact h
  · exact absurd (fun _ _ => trivial) h

/-- A suite with a non-trivial tree and a null test meets the condition. -/
example : ∀ k r, (k, some r) ∈ ([(c!"x", some exTree), (c!"y", none)] : Validate.Suite) → Everywhere SavableNode r := by
  intro k r h
  simp only [List.mem_cons, Prod.mk.injEq, Option.some.injEq, List.not_mem_nil, or_false] at h
  rcases h with ⟨_, rfl⟩ | ⟨_, h⟩
  · intro p n hn
    have hg : ∀ e : Event, e ∈ [(⟨⟨c!"a", .in_⟩, .int 1⟩ : Event), ⟨⟨c!"b", .out⟩, .int (-2)⟩, ⟨⟨c!"b", .out⟩, .int 3⟩] → GoodEvent e := by
      intro e he
      simp only [List.mem_cons, List.not_mem_nil, or_false] at he
      rcases he with rfl | rfl | rfl
      · exact ⟨⟨⟨by decide, noOuterSpace_of_forall (by decide), by decide⟩, by decide⟩, Or.inr trivial⟩
      · exact ⟨⟨⟨by decide, noOuterSpace_of_forall (by decide), by decide⟩, by decide⟩, Or.inr trivial⟩
      · exact ⟨⟨⟨by decide, noOuterSpace_of_forall (by decide), by decide⟩, by decide⟩, Or.inr trivial⟩
    have all : ∀ x ∈ preorder [] exTree, x.2.outcome ∈ [oUnset, oInc, oFail, oPass] ∧
        ∀ e ∈ x.2.event.toList, e ∈ [(⟨⟨c!"a", .in_⟩, .int 1⟩ : Event), ⟨⟨c!"b", .out⟩, .int (-2)⟩, ⟨⟨c!"b", .out⟩, .int 3⟩] := by decide
    obtain ⟨h1, h2⟩ := all (p, n) (mem_preorder.2 ⟨p, rfl, hn⟩)
    exact ⟨fun e he => hg e (h2 e (by simp only at *; rw [he]; simp)), h1⟩
  · cases h

/-- The condition matters: an event on a channel without a name does not come back. -/
theorem C54_empty_channel_lost : ¬ ∃ j s', Json.encodeSuite [(c!"x", some ⟨[], [], .pass, some ⟨⟨[], .in_⟩, .int 5⟩, []⟩)] = .ok j ∧
    Json.decodeSuite j = .ok s' ∧ [(c!"x", some ⟨[], [], .pass, some ⟨⟨[], .in_⟩, .int 5⟩, []⟩)].Perm s' := by
  rw [C54_suite_survives _ (by decide)]
  intro h
  exact ((h _ _ (List.mem_singleton.2 rfl) [] _ rfl).1 _ rfl).1.1.1 rfl

/-! ### C55 -/

/-- C55: a suite of machines read back after writing is the same suite (up to the orders of its maps and sets) exactly when
all channels and values in it survive the text format, all outcomes are declared ones and all types have a text. -/
theorem C55_machines_survive (s : StmSuite) (ht : GoMap.WF s.types) (hs : GoMap.WF s.tests) (hm : ∀ x ∈ s.tests, StmMaps x.2) :
    (∃ j s', Json.encodeStmSuite s = .ok j ∧ Json.decodeStmSuite j = .ok s' ∧ SameStmSuite s s') ↔
      SavableTypes s.types ∧ ∀ x ∈ s.tests, SavableStm x.2 :=
  Json.stmSuite_survives ht hs hm

/-- Machines built from validated tests meet the condition whenever every event of the tests survives the text format and
has a value. -/
theorem C55_built_machines (b b' : Builder) (ts : GoMap Str Validate.Test) (hwf : GoMap.WF ts) (hv : Validated ts) (r : StmSuite)
    (h : b.buildSuite ts = .ok (b', r))
    (hg : ∀ nt ∈ ts, AllEvents (fun e => GoodChannel e.channel ∧ GoodValue e.value) nt.2.root) :
    ∃ j r', Json.encodeStmSuite r = .ok j ∧ Json.decodeStmSuite j = .ok r' ∧ SameStmSuite r r' :=
  suite_savable hwf hv h hg

example : ∃ s : StmSuite, s.tests.length = 1 ∧ GoMap.WF s.types ∧ GoMap.WF s.tests ∧ (∀ x ∈ s.tests, StmMaps x.2) ∧
    SavableTypes s.types ∧ ∀ x ∈ s.tests, SavableStm x.2 := by
  refine ⟨⟨[(c!"a", some ⟨⟨1⟩, ⟨1⟩⟩)], [(c!"t",
    { states := [⟨c!"initial", [⟨⟨c!"a", .out⟩, [⟨.int 3, c!"step0"⟩]⟩], [(c!"t", oPass)]⟩, ⟨c!"step0", [], [(c!"t", oFail)]⟩],
      types := [(c!"a", some ⟨⟨1⟩, ⟨1⟩⟩)], tests := [(c!"t", true)] })]⟩, rfl, by decide, by decide, ?_, ?_, ?_⟩
  · intro x hx
    simp only [List.mem_singleton] at hx
    subst hx
    refine ⟨?_, by decide, by decide⟩
    intro s hs
    simp only [List.mem_cons, List.not_mem_nil, or_false] at hs
    rcases hs with rfl | rfl <;> decide
  · intro name t h
    simp only [List.mem_singleton, Prod.mk.injEq, Option.some.injEq] at h
    exact ⟨"nat".toList, by rw [h.2]; simp [typeTexts]⟩
  · intro x hx
    simp only [List.mem_singleton] at hx
    subst hx
    constructor
    · intro s hs
      simp only [List.mem_cons, List.not_mem_nil, or_false] at hs
      rcases hs with rfl | rfl
      · constructor
        · intro ts hts
          simp only [List.mem_singleton] at hts
          subst hts
          refine ⟨⟨⟨by decide, noOuterSpace_of_forall (by decide), by decide⟩, by decide⟩, ?_⟩
          intro t ht
          simp only [List.mem_singleton] at ht
          subst ht
          trivial
        · intro test o h
          simp only [List.mem_singleton, Prod.mk.injEq] at h
          rw [h.2]; decide
      · constructor
        · intro ts hts; simp at hts
        · intro test o h
          simp only [List.mem_singleton, Prod.mk.injEq] at h
          rw [h.2]; decide
    · intro name t h
      simp only [List.mem_singleton, Prod.mk.injEq, Option.some.injEq] at h
      exact ⟨"nat".toList, by rw [h.2]; simp [typeTexts]⟩

/-! ### C56 -/

theorem makeStms_eq {input : Json} {s : Validate.Suite} {vs : GoMap Str Validate.Test} (hs : Json.decodeSuite input = .ok s)
    (hv : Validate.fullSuite s = .ok vs) : makeStmsProgram input =
      match Builder.zero.buildSuite vs with
      | .error f => .error f
      | .ok (_, stms) => Json.encodeStmSuite stms := by
  unfold makeStmsProgram
  rw [hs]
  simp only [hv]
  rfl

/-- Full statement (false, see `C56_false`): rtcg-make-stms writes the machines of every valid suite with consistent types.
Proved: it does so exactly when, in addition, every event carries a value.  Missing: events without a value, on which
writing fails. -/
theorem C56_writes_iff_partial (input : Json) (s : Validate.Suite) (vs : GoMap Str Validate.Test)
    (hs : Json.decodeSuite input = .ok s) (hv : Validate.fullSuite s = .ok vs) :
    (∃ out, makeStmsProgram input = .ok out) ↔
      (¬ ∃ name, Conflict (SuiteCarries vs name)) ∧ ∀ nt ∈ vs, AllEvents (fun e => e.value ≠ .none) nt.2.root := by
  obtain ⟨hwf, hval⟩ := C36_validated s (Json.decodeMap_wf hs) vs hv
  obtain ⟨h1, h2⟩ := C36_success Builder.zero vs hwf hval
  rw [makeStms_eq hs hv]
  cases hb : Builder.zero.buildSuite vs with
  | error f =>
    rw [hb] at h1
    constructor
    · rintro ⟨out, h⟩; cases h
    · rintro ⟨h, _⟩
      obtain ⟨_, _, h⟩ := h1.2 h
      cases h
  | ok x =>
    obtain ⟨b, r⟩ := x
    have hc := h1.1 ⟨b, r, hb⟩
    rw [and_iff_right hc]
    simp only
    rcases suite_writes hwf hval hb with ⟨hp, j, hj⟩ | ⟨hp, hj⟩
    · exact ⟨fun _ => hp, fun _ => ⟨j, hj⟩⟩
    · rw [hj]
      constructor
      · rintro ⟨out, h⟩; cases h
      · intro h; exact absurd h hp

/-- When it fails on a valid suite: the unification error on conflicting types, otherwise the absent-value error. -/
theorem C56_errors (input : Json) (s : Validate.Suite) (vs : GoMap Str Validate.Test)
    (hs : Json.decodeSuite input = .ok s) (hv : Validate.fullSuite s = .ok vs) :
    ((∃ name, Conflict (SuiteCarries vs name)) → makeStmsProgram input = .error (.err .unifyDifferentKinds)) ∧
    ((¬ ∃ name, Conflict (SuiteCarries vs name)) → ¬ (∀ nt ∈ vs, AllEvents (fun e => e.value ≠ .none) nt.2.root) →
      makeStmsProgram input = .error (.err .marshalAbsentValue)) := by
  obtain ⟨hwf, hval⟩ := C36_validated s (Json.decodeMap_wf hs) vs hv
  obtain ⟨h1, h2⟩ := C36_success Builder.zero vs hwf hval
  rw [makeStms_eq hs hv]
  constructor
  · intro h
    rw [h2.2 h]
  · intro hc hn
    obtain ⟨b, r, hb⟩ := h1.2 hc
    rw [hb]
    simp only
    rcases suite_writes hwf hval hb with ⟨hp, _⟩ | ⟨_, hj⟩
    · exact absurd hp hn
    · exact hj

/-- What was written is the machines built, and reads back as them when no channel has an empty name. -/
theorem C56_output (input out : Json) (s : Validate.Suite) (vs : GoMap Str Validate.Test)
    (hs : Json.decodeSuite input = .ok s) (hv : Validate.fullSuite s = .ok vs) (hout : makeStmsProgram input = .ok out)
    (hn : ∀ nt ∈ vs, AllEvents (fun e => e.channel.name ≠ []) nt.2.root) :
    ∃ b r r', Builder.zero.buildSuite vs = .ok (b, r) ∧ Json.decodeStmSuite out = .ok r' ∧ SameStmSuite r r' := by
  have hc := (C56_writes_iff_partial input s vs hs hv).1 ⟨out, hout⟩
  obtain ⟨hwf, hval⟩ := C36_validated s (Json.decodeMap_wf hs) vs hv
  obtain ⟨b, r, hb⟩ := (C36_success Builder.zero vs hwf hval).1.2 hc.1
  rw [makeStms_eq hs hv, hb] at hout
  simp only at hout
  obtain ⟨j, r', h1, h2, h3⟩ := suite_savable hwf hval hb (by
    intro nt hnt p n e hn' he
    have hroot : (nt.1, some nt.2.root) ∈ s := by
      have hfs := ((C25_fullSuite_iff s (Json.decodeMap_wf hs) vs).1 hv).1
      rw [← hfs]
      exact List.mem_map.2 ⟨nt, hnt, rfl⟩
    have hread := Json.decodeSuite_read hs _ _ hroot p n hn' e he
    have hgood := hread.good (hn nt hnt p n e hn' he)
    refine ⟨hgood.1, ?_⟩
    rcases hgood.2 with h | h
    · exact absurd h (hc.2 nt hnt p n e hn' he)
    · exact h)
  rw [hout] at h1
  cases h1
  exact ⟨b, r, r', hb, h2, h3⟩

/-! ### C57 -/

theorem allEvents_iff {P : Event → Prop} {n : Node} : AllEvents P n ↔ (∀ e, n.event = some e → P e) ∧ ∀ c ∈ n.next, AllEvents P c :=
  by
  have h : ∀ n : Node, AllEvents P n ↔ Everywhere (fun n => ∀ e, n.event = some e → P e) n :=
    fun n => ⟨fun h p n' hn e he => h p n' e hn he, fun h p n' e hn he => h p n' hn e he⟩
  simp only [h]
  exact Json.everywhere_iff

theorem allEvents_branch {P : Event → Prop} (name : Str) (l : List (Outcome × Option Event)) :
    (∀ c ∈ branch name l, AllEvents P c) ↔ ∀ x ∈ l, ∀ e, x.2 = some e → P e := by
  induction l with
  | nil => simp [branch]
  | cons x l ih =>
    obtain ⟨o, e⟩ := x
    simp only [branch, List.mem_cons, forall_eq_or_imp]
    rw [allEvents_iff]
    simp only [ih]
    simp

/-- The events of the tree of a trace are the events of the trace. -/
theorem allEvents_expand {P : Event → Prop} (f : Forbidden) (name : Str) :
    AllEvents P (f.expand name) ↔ ∀ e ∈ eventsOf f, P e := by
  rw [allEvents_iff, expand_eq]
  simp only [reduceCtorEq, false_implies, implies_true, true_and, allEvents_branch]
  unfold spineOf eventsOf
  constructor
  · intro h e he
    rcases List.mem_append.1 he with he | he
    · exact h (oInc, some e) (List.mem_append_left _ (List.mem_map.2 ⟨e, he, rfl⟩)) e rfl
    · rw [List.mem_singleton] at he
      subst he
      exact h (oPass, some f.forbid) (by simp) _ rfl
  · intro h x hx e he
    rcases List.mem_append.1 hx with hx | hx
    · obtain ⟨e', he', rfl⟩ := List.mem_map.1 hx
      cases he
      exact h _ (List.mem_append_left _ he')
    · simp only [List.mem_cons, List.not_mem_nil, or_false] at hx
      rcases hx with rfl | rfl
      · cases he; exact h _ (by simp)
      · cases he

theorem carries_expand (f : Forbidden) (name chan : Str) (ty : RsType) : Carries (f.expand name) chan ty ↔ TraceCarries f chan ty := by
  have hwf := expand_wellFormed f name
  have h := allEvents_expand (P := fun e => ¬ (e.channel.name = chan ∧ ty = e.value.type)) f name
  unfold TraceCarries
  constructor
  · rintro ⟨p, n, e, h1, _, h3, h4, h5⟩
    by_contra hno
    push Not at hno
    exact h.2 (fun e he => fun hh => hno e he hh.1 hh.2) p n e h1 h3 ⟨h4, h5⟩
  · rintro ⟨e, he, h4, h5⟩
    by_contra hno
    refine h.1 ?_ e he ⟨h4, h5⟩
    intro p n e' h1 h3 hh
    refine hno ⟨p, n, e', h1, ?_, h3, hh.1, hh.2⟩
    intro ho
    by_cases hp : p = []
    · subst hp
      simp only [nodeAt, Option.some.injEq] at h1
      subst h1
      rw [hwf.1.1] at h3
      cases h3
    · rcases (hwf.2 p n hp h1).2 with ⟨_, h2, _⟩ | ⟨h1, _⟩ | ⟨h1, _⟩
      · rw [h2] at h3; cases h3
      · rw [ho] at h1; exact absurd h1 (by decide)
      · rw [ho] at h1; exact absurd h1 (by decide)

theorem read_events {file : Str} {traces : List Forbidden} (h : Forbidden.read file = some (.ok traces)) {f : Forbidden}
    (hf : f ∈ traces) {e : Event} (he : e ∈ eventsOf f) : ReadEvent e := by
  obtain ⟨rows, h0, h2⟩ := (C14_ok_iff file traces).1 h
  have : ∃ row, RowDenotes row f := by
    clear h h0
    induction h2 with
    | nil => simp at hf
    | cons h _ ih =>
      rcases List.mem_cons.1 hf with rfl | hf
      · exact ⟨_, h⟩
      · exact ih hf
  obtain ⟨row, cell0, cells, text0, _, _, hm⟩ := this
  have : Except.ok e ∈ (text0 :: cells).map Event.parse := by
    rw [hm]
    exact List.mem_map.2 ⟨e, he, rfl⟩
  obtain ⟨t, _, ht⟩ := List.mem_map.1 this
  exact readEvent_parse ht

theorem everywhere_outcome (f : Forbidden) (name : Str) (h : ∀ e ∈ eventsOf f, GoodEvent e) :
    Everywhere SavableNode (f.expand name) := by
  intro p n hn
  exact ⟨fun e he => (allEvents_expand f name).2 h p n e hn he, outcome_wellFormed (expand_wellFormed f name) hn⟩

theorem sameMap_get? {α : Type} {R : α → α → Prop} {m m' : GoMap Str α} (h : SameMap R m m') (k : Str) :
    (m.get? k).isSome = (m'.get? k).isSome ∧ ∀ a a', m.get? k = some a → m'.get? k = some a' → R a a' := by
  have hk := h k
  cases h1 : m.get? k with
  | none =>
    rw [h1] at hk
    cases h2 : m'.get? k with
    | none => simp
    | some a' => rw [h2] at hk; cases hk
  | some a =>
    rw [h1] at hk
    cases h2 : m'.get? k with
    | none => rw [h2] at hk; cases hk
    | some a' =>
      rw [h2] at hk
      cases hk with
      | some hr => exact ⟨rfl, fun x x' e e' => by cases e; cases e'; exact hr⟩

theorem typesAre_of_equiv {t t' : TypeMap} {S : Str → RsType → Prop} (h : TypesAre t S) (he : GoMap.Equiv t t') : TypesAre t' S := by
  intro name
  rw [← he name]
  exact h name

theorem read_pipeline {file : Str} {traces : List Forbidden} (h : Forbidden.read file = some (.ok traces))
    (hn : ∀ f ∈ traces, ∀ e ∈ eventsOf f, e.channel.name ≠ []) :
    ∃ named j s' vs, Forbidden.nameAll traces = some named ∧ GoMap.WF named ∧ named.map (·.2) = traces ∧ readTracesProgram file = .ok j ∧
      Json.decodeSuite j = .ok s' ∧ Validate.fullSuite s' = .ok vs ∧
      (named.map (fun kt => (kt.1, (⟨kt.2.expand kt.1⟩ : Validate.Test)))).Perm vs := by
  obtain ⟨names, hl, hna, hnd, _, _⟩ := nameAll_spec traces
  have hwf : GoMap.WF (names.zip traces) := by
    unfold GoMap.WF; rw [List.map_fst_zip (by omega)]; exact hnd
  have hsnd : (names.zip traces).map (·.2) = traces := List.map_snd_zip (by omega)
  have hfull := C18_expanded_suite_valid (names.zip traces) hwf
  have hs0 : GoMap.WF ((Forbidden.expandAll (names.zip traces)).map (fun kn => (kn.1, some kn.2))) := by
    rw [expandAll_eq _ hwf]
    unfold GoMap.WF at hwf ⊢
    simpa [Function.comp_def] using hwf
  obtain ⟨j, s', hj, hd, hp⟩ := (C54_suite_survives _ hs0).2 (by
    intro k r hk
    rw [expandAll_eq _ hwf] at hk
    simp only [List.map_map, List.mem_map, Function.comp_apply, Prod.mk.injEq, Option.some.injEq] at hk
    obtain ⟨⟨k', f⟩, hkf, rfl, rfl⟩ := hk
    have hf : f ∈ traces := by rw [← hsnd]; exact List.mem_map.2 ⟨_, hkf, rfl⟩
    exact everywhere_outcome f _ fun e he => (read_events h hf he).good (hn f hf e he))
  obtain ⟨vs, hvs, hpv⟩ := C25_order _ s' hs0 hp _ hfull
  refine ⟨_, j, s', vs, hna, hwf, hsnd, ?_, hd, hvs, hpv⟩
  unfold readTracesProgram
  rw [h]
  simp only [Option.getD_some, hna, hj]

/-- C57: from a traces file whose events all have a non-empty channel name and a value, with consistent types, the two programs
joined by JSON make one machine per trace, under the trace's name; read back, its states are the linear machine of the trace, its
types the least ones for the values of the trace, and it declares exactly its own test. -/
theorem C57_pipeline (file : Str) (traces : List Forbidden) (h : Forbidden.read file = some (.ok traces))
    (hev : ∀ f ∈ traces, ∀ e ∈ eventsOf f, e.channel.name ≠ [] ∧ e.value ≠ .none)
    (hty : ¬ ∃ chan, Conflict (fun ty => ∃ f ∈ traces, TraceCarries f chan ty)) :
    ∃ j out suite named, readTracesProgram file = .ok j ∧ makeStmsProgram j = .ok out ∧ Json.decodeStmSuite out = .ok suite ∧
      Forbidden.nameAll traces = some named ∧
      (∀ name, (suite.tests.get? name).isSome = (named.get? name).isSome) ∧
      (∀ name f m, named.get? name = some f → suite.tests.get? name = some m →
        List.Forall₂ SameState (linearStates f name) m.states ∧ TypesAre m.types (TraceCarries f) ∧ GoSet.values m.tests = [name]) ∧
      TypesAre suite.types (fun chan ty => ∃ f ∈ traces, TraceCarries f chan ty) := by
  obtain ⟨named, j, s', vs, h1, h2, h3, h4, h5, h6, h7⟩ := read_pipeline h fun f hf e he => (hev f hf e he).1
  have hmem : ∀ k t, (k, t) ∈ vs ↔ ∃ f, (k, f) ∈ named ∧ t = ⟨f.expand k⟩ := by
    intro k t
    rw [← h7.mem_iff, List.mem_map]
    constructor
    · rintro ⟨⟨k', f⟩, hf, e⟩
      simp only [Prod.mk.injEq] at e
      obtain ⟨rfl, rfl⟩ := e
      exact ⟨f, hf, rfl⟩
    · rintro ⟨f, hf, rfl⟩; exact ⟨(k, f), hf, rfl⟩
  have htr : ∀ k f, (k, f) ∈ named → f ∈ traces := by
    intro k f hf; rw [← h3]; exact List.mem_map.2 ⟨_, hf, rfl⟩
  have hcar : SuiteCarries vs = fun chan ty => ∃ f ∈ traces, TraceCarries f chan ty := by
    funext chan ty
    apply propext
    constructor
    · rintro ⟨⟨k, t⟩, hnt, hc⟩
      obtain ⟨f, hf, rfl⟩ := (hmem k t).1 hnt
      exact ⟨f, htr k f hf, (carries_expand f k chan ty).1 hc⟩
    · rintro ⟨f, hf, hc⟩
      rw [← h3] at hf
      obtain ⟨⟨k, f'⟩, hkf, rfl⟩ := List.mem_map.1 hf
      exact ⟨(k, ⟨f'.expand k⟩), (hmem _ _).2 ⟨f', hkf, rfl⟩, (carries_expand f' k chan ty).2 hc⟩
  have hall : ∀ P : Event → Prop, (∀ f ∈ traces, ∀ e ∈ eventsOf f, P e) → ∀ nt ∈ vs, AllEvents P nt.2.root := by
    rintro P hP ⟨k, t⟩ hnt
    obtain ⟨f, hf, rfl⟩ := (hmem k t).1 hnt
    exact (allEvents_expand f k).2 (hP f (htr k f hf))
  obtain ⟨out, hout⟩ := (C56_writes_iff_partial j s' vs h5 h6).2
    ⟨by rw [hcar]; exact hty, hall _ fun f hf e he => (hev f hf e he).2⟩
  obtain ⟨b, r, r', hb, hd, hsame⟩ := C56_output j out s' vs h5 h6 hout (hall _ fun f hf e he => (hev f hf e he).1)
  obtain ⟨hwf, hval⟩ := C36_validated s' (Json.decodeMap_wf h5) vs h6
  obtain ⟨hkeys, _, htypes⟩ := C36_result Builder.zero b vs hwf hval r hb
  have hwfr : GoMap.WF r.tests := by unfold GoMap.WF; rw [hkeys]; exact hwf
  have hmach : ∀ name f, named.get? name = some f → ∃ m b₁ t', r.tests.get? name = some m ∧
      Builder.zero.build ⟨f.expand name⟩ = some (.ok (b₁, m, t')) := by
    intro name f hf
    obtain ⟨m, b₁, t', hm, hbm⟩ := suite_machine_conv hwf hval hb ((hmem name ⟨f.expand name⟩).2 ⟨f, GoMap.mem_of_get? hf, rfl⟩)
    exact ⟨m, b₁, t', GoMap.get?_of_mem hwfr hm, hbm⟩
  refine ⟨j, out, r', named, h4, hout, hd, h1, ?_, ?_, ?_⟩
  · intro name
    rw [← (sameMap_get? hsame.2 name).1]
    cases hf : named.get? name with
    | some f =>
      obtain ⟨m, _, _, hm, _⟩ := hmach name f hf
      rw [hm]; rfl
    | none =>
      cases hr : r.tests.get? name with
      | none => rfl
      | some m =>
        obtain ⟨t, _, _, ht, _⟩ := suite_machine hwf hval hb (GoMap.mem_of_get? hr)
        obtain ⟨f, hf', _⟩ := (hmem name t).1 ht
        rw [GoMap.get?_of_mem h2 hf'] at hf
        cases hf
  · intro name f m' hf hm'
    obtain ⟨m, b₁, t', hm, hbm⟩ := hmach name f hf
    obtain ⟨g1, g2, g3⟩ := (sameMap_get? hsame.2 name).2 m m' hm hm'
    have hfull := C18_expansion_valid f name
    refine ⟨by rw [← linear_states hfull hbm]; exact g1, ?_, ?_⟩
    · have hT := (C34_types Builder.zero b₁ (f.expand name) _ t' m hfull hbm).2
      have : Carries (f.expand name) = TraceCarries f := by
        funext chan ty; exact propext (carries_expand f name chan ty)
      rw [this] at hT
      exact typesAre_of_equiv hT g2
    · obtain ⟨v1, v2, _⟩ := C33_tests Builder.zero b₁ (f.expand name) _ t' m hfull hbm
      have hnodup : (GoSet.values m'.tests).Nodup := g3.nodup_iff.1 v1
      have hiff : ∀ x, x ∈ GoSet.values m'.tests ↔ x ∈ [name] := by
        intro x
        rw [← g3.mem_iff, v2, List.mem_singleton]
        constructor
        · rintro ⟨p, n, hp, hn, hx⟩
          rw [expand_eq] at hn
          rcases nodeAt_branch rfl hn with h | ⟨_, _, _, _, rfl⟩
          · exact absurd h hp
          · simpa using hx
        · rintro rfl
          have : ∃ c, (f.expand x).next = [c] ∧ c.tests = [x] := by
            rw [expand_eq]
            unfold spineOf
            cases f.pre with
            | nil => exact ⟨_, rfl, rfl⟩
            | cons e pre => exact ⟨_, rfl, rfl⟩
          obtain ⟨c, hc, hct⟩ := this
          exact ⟨[0], c, by simp, by simp [nodeAt, hc], by simp [hct]⟩
      exact List.perm_singleton.1 ((List.perm_ext_iff_of_nodup hnodup (by simp)).2 hiff)
  · rw [← hcar]
    exact typesAre_of_equiv htypes hsame.1

/-- A file with two traces, one named, a prefix and a comment. -/
def exFile : Str := c!"# c\nx: a.in.1, b.out.ok\nb.out.bad\n"

/-- Its traces. -/
def exTraces : List Forbidden :=
  [⟨c!"x", [⟨⟨c!"a", .in_⟩, .int 1⟩], ⟨⟨c!"b", .out⟩, .enum c!"ok"⟩⟩, ⟨[], [], ⟨⟨c!"b", .out⟩, .enum c!"bad"⟩⟩]

theorem exFile_read : Forbidden.read exFile = some (.ok exTraces) := by decide +kernel

theorem exTraces_events : ∀ f ∈ exTraces, ∀ e ∈ eventsOf f, e.channel.name ≠ [] ∧ e.value ≠ .none := by decide

theorem exTraces_types : ¬ ∃ chan, Conflict (fun ty => ∃ f ∈ exTraces, TraceCarries f chan ty) := by
  rintro ⟨chan, x, y, ⟨f, hf, e, he, hc, rfl⟩, ⟨f', hf', e', he', hc', rfl⟩, hk⟩
  have : ∀ f ∈ exTraces, ∀ e ∈ eventsOf f, ∀ f' ∈ exTraces, ∀ e' ∈ eventsOf f',
      e.channel.name = e'.channel.name → e.value.type.kind = e'.value.type.kind := by decide
  exact hk (this f hf e he f' hf' e' he' (hc.trans hc'.symm))

/-- Not vacuous: the conditions of C57 hold of this file. -/
example := C57_pipeline exFile exTraces exFile_read exTraces_events exTraces_types

/-- C56 is false: a trace with an event that carries no value is valid and consistently typed, and its machine cannot be
written. -/
theorem C56_false : ∃ file input s vs, readTracesProgram file = .ok input ∧ Json.decodeSuite input = .ok s ∧
    Validate.fullSuite s = .ok vs ∧ (¬ ∃ name, Conflict (SuiteCarries vs name)) ∧
    makeStmsProgram input = .error (.err .marshalAbsentValue) := by
  have hr : Forbidden.read c!"a.in" = some (.ok [⟨[], [], ⟨⟨c!"a", .in_⟩, .none⟩⟩]) := by decide +kernel
  obtain ⟨named, j, s', vs, h1, h2, h3, h4, h5, h6, h7⟩ := read_pipeline hr (by decide)
  have hone : ∃ k, named = [(k, ⟨[], [], ⟨⟨c!"a", .in_⟩, .none⟩⟩)] := by
    match named, h3 with
    | [(k, f)], h3 =>
      simp only [List.map_cons, List.map_nil, List.cons.injEq, and_true] at h3
      exact ⟨k, by rw [h3]⟩
  obtain ⟨k, rfl⟩ := hone
  simp only [List.map_cons, List.map_nil] at h7
  have hvs := (List.perm_singleton.1 h7.symm)
  subst hvs
  have hno : ¬ ∃ name, Conflict (SuiteCarries [(k, (⟨Forbidden.expand ⟨[], [], ⟨⟨c!"a", .in_⟩, .none⟩⟩ k⟩ : Validate.Test))] name) := by
    rintro ⟨name, x, y, ⟨nt, hnt, hx⟩, ⟨nt', hnt', hy⟩, hk⟩
    rw [List.mem_singleton] at hnt hnt'
    subst hnt hnt'
    obtain ⟨e, he, _, rfl⟩ := (carries_expand _ _ _ _).1 hx
    obtain ⟨e', he', _, rfl⟩ := (carries_expand _ _ _ _).1 hy
    simp [eventsOf] at he he'
    subst he he'
    exact hk rfl
  refine ⟨_, j, s', _, h4, h5, h6, hno, (C56_errors j s' _ h5 h6).2 hno ?_⟩
  intro hall
  have := (allEvents_expand _ _).1 (hall _ (List.mem_singleton.2 rfl))
  exact this ⟨⟨c!"a", .in_⟩, .none⟩ (by simp [eventsOf]) rfl

end Rtcg
