import Verif.Proofs.JsonText
import Verif.Proofs.Json
import Verif.Proofs.JsonStm
import Verif.Proofs.JsonRead
import Verif.Props.Trace

/-
How deep the JSON written by the programs is nested, and that it has no numbers in it.
-/

namespace Rtcg.JsonText

open Rtcg Rtcg.Spec Rtcg.Json

theorem depthElems_le {xs : List Json} {n : Nat} : depthElems xs ≤ n ↔ ∀ x ∈ xs, depth x ≤ n := by
  induction xs with
  | nil => simp [depthElems]
  | cons x xs ih => simp only [depthElems, List.mem_cons, forall_eq_or_imp, ← ih]; omega

theorem depthFields_le {fs : List (Str × Json)} {n : Nat} : depthFields fs ≤ n ↔ ∀ f ∈ fs, depth f.2 ≤ n := by
  induction fs with
  | nil => simp [depthFields]
  | cons f fs ih =>
    obtain ⟨k, j⟩ := f
    simp only [depthFields, depthField, List.mem_cons, forall_eq_or_imp, ← ih]; omega

theorem numbersElems_iff {xs : List Json} : NumbersOKElems xs ↔ ∀ x ∈ xs, NumbersOK x := by
  induction xs with
  | nil => simp [NumbersOKElems]
  | cons x xs ih => simp only [NumbersOKElems, List.mem_cons, forall_eq_or_imp, ← ih]

theorem numbersFields_iff {fs : List (Str × Json)} : NumbersOKFields fs ↔ ∀ f ∈ fs, NumbersOK f.2 := by
  induction fs with
  | nil => simp [NumbersOKFields]
  | cons f fs ih =>
    obtain ⟨k, j⟩ := f
    simp only [NumbersOKFields, List.mem_cons, forall_eq_or_imp, ← ih]

/-- Nested at most so deep, with numbers that are numbers. -/
def Good (n : Nat) (j : Json) : Prop := depth j ≤ n ∧ NumbersOK j

theorem Good.mono {n m : Nat} {j : Json} (h : Good n j) (hm : n ≤ m) : Good m j := ⟨h.1.trans hm, h.2⟩

theorem good_str (n : Nat) (s : Str) : Good n (.str s) := ⟨by simp [depth], by simp [NumbersOK]⟩

theorem good_null (n : Nat) : Good n .null := ⟨by simp [depth], by simp [NumbersOK]⟩

theorem good_arr {n : Nat} {xs : List Json} (h : ∀ x ∈ xs, Good n x) : Good (n + 1) (.arr xs) := by
  refine ⟨?_, ?_⟩
  · simp only [depth]
    have := depthElems_le.2 fun x hx => (h x hx).1
    omega
  · simp only [NumbersOK]
    exact numbersElems_iff.2 fun x hx => (h x hx).2

theorem good_obj {n : Nat} {fs : List (Str × Json)} (h : ∀ f ∈ fs, Good n f.2) : Good (n + 1) (.obj fs) := by
  refine ⟨?_, ?_⟩
  · simp only [depth]
    have := depthFields_le.2 fun x hx => (h x hx).1
    omega
  · simp only [NumbersOK]
    exact numbersFields_iff.2 fun x hx => (h x hx).2

theorem mem_field {name k : Str} {skip : Bool} {v j : Json} (h : (k, j) ∈ field name skip v) : j = v := by
  unfold field at h
  split at h
  · simp at h
  · simp only [List.mem_singleton, Prod.mk.injEq] at h; exact h.2

theorem good_elems {α : Type} {enc : α → Res Json} {l : List α} {js : List Json} {n : Nat} (h : encodeElems enc l = .ok js)
    (hg : ∀ a j, enc a = .ok j → Good n j) : ∀ x ∈ js, Good n x := by
  intro x hx
  obtain ⟨i, hi, rfl⟩ := List.mem_iff_getElem.1 hx
  have hf := encodeElems_ok_iff.1 h
  exact hg _ _ (hf.get (i := i) (by rw [hf.length_eq]; exact hi) hi)

theorem good_map {α : Type} {enc : α → Res Json} {m : GoMap Str α} {j : Json} {n : Nat} (h : encodeMap enc m = .ok j)
    (hg : ∀ a j, enc a = .ok j → Good n j) : Good (n + 1) j := by
  unfold encodeMap at h
  obtain ⟨fs, hfs, rfl⟩ := Json.map_ok h
  refine good_obj fun f hf => ?_
  have hf := (sortFields_perm fs).mem_iff.1 hf
  obtain ⟨i, hi, rfl⟩ := List.mem_iff_getElem.1 hf
  have h2 := encodeEntries_ok_iff.1 hfs
  exact hg _ _ (h2.get (i := i) (by rw [h2.length_eq]; exact hi) hi).2

/-! ### state machines -/

theorem good_transition {t : Transition} {j : Json} (h : encodeTransition t = .ok j) : Good 1 j := by
  unfold encodeTransition at h
  cases hv : t.value.marshalText with
  | error e => rw [hv] at h; cases h
  | ok s =>
    rw [hv] at h
    cases h
    refine good_obj fun f hf => ?_
    obtain ⟨k, j⟩ := f
    rcases List.mem_cons.1 hf with e | hf
    · cases e; exact good_str _ _
    · rw [mem_field hf]; exact good_str _ _

theorem good_tset {t : TSet} {j : Json} (h : encodeTSet t = .ok j) : Good 3 j := by
  unfold encodeTSet at h
  cases hv : encodeElems encodeTransition t.transitions with
  | error e => rw [hv] at h; cases h
  | ok ts =>
    rw [hv] at h
    cases h
    refine good_obj fun f hf => ?_
    obtain ⟨k, j⟩ := f
    rcases List.mem_cons.1 hf with e | hf
    · cases e; exact good_str _ _
    · rw [mem_field hf]; exact good_arr (good_elems hv fun _ _ => good_transition)

theorem good_verdict {v : Verdict} {j : Json} (h : encodeVerdict v = .ok j) : Good 1 j :=
  good_map h fun a j h => by cases h; exact good_str _ _

theorem good_state {s : State} {j : Json} (h : encodeState s = .ok j) : Good 5 j := by
  unfold encodeState at h
  cases hv : encodeElems encodeTSet s.transitionSets with
  | error e => rw [hv] at h; cases h
  | ok ts =>
    rw [hv] at h
    simp only at h
    cases hw : encodeVerdict s.verdict with
    | error e => rw [hw] at h; cases h
    | ok v =>
      rw [hw] at h
      cases h
      refine good_obj fun f hf => ?_
      obtain ⟨k, j⟩ := f
      rcases List.mem_cons.1 hf with e | hf
      · cases e; exact good_str _ _
      · rcases List.mem_append.1 hf with hf | hf
        · rw [mem_field hf]; exact good_arr (good_elems hv fun _ _ => good_tset)
        · simp only [List.mem_singleton, Prod.mk.injEq] at hf
          rw [hf.2]; exact (good_verdict hw).mono (by omega)

theorem good_type {t : Option RsType} {j : Json} (h : encodeType t = .ok j) : Good 0 j := by
  cases t with
  | none => cases h; exact good_null _
  | some t =>
    simp only [encodeType] at h
    cases ht : t.marshalText with
    | error e => rw [ht] at h; cases h
    | ok s => rw [ht] at h; cases h; exact good_str _ _

theorem good_types {m : TypeMap} {j : Json} (h : encodeTypes m = .ok j) : Good 1 j := good_map h fun _ _ => good_type

theorem good_stm {m : Stm} {j : Json} (h : encodeStm m = .ok j) : Good 7 j := by
  unfold encodeStm at h
  cases hv : encodeElems encodeState m.states with
  | error e => rw [hv] at h; cases h
  | ok ss =>
    rw [hv] at h
    simp only at h
    cases hw : encodeTypes m.types with
    | error e => rw [hw] at h; cases h
    | ok ty =>
      rw [hw] at h
      cases h
      refine good_obj fun f hf => ?_
      obtain ⟨k, j⟩ := f
      simp only [List.mem_cons, Prod.mk.injEq, List.not_mem_nil, or_false] at hf
      rcases hf with ⟨_, rfl⟩ | ⟨_, rfl⟩ | ⟨_, rfl⟩
      · exact good_arr (good_elems hv fun _ _ => good_state)
      · exact (good_types hw).mono (by omega)
      · unfold encodeSet
        refine Good.mono (n := 1) (good_arr fun x hx => ?_) (by omega)
        obtain ⟨s, _, rfl⟩ := List.mem_map.1 hx
        exact good_str _ _

theorem good_stmSuite {s : StmSuite} {j : Json} (h : encodeStmSuite s = .ok j) : Good 9 j := by
  unfold encodeStmSuite at h
  cases hv : encodeTypes s.types with
  | error e => rw [hv] at h; cases h
  | ok ty =>
    rw [hv] at h
    simp only at h
    cases hw : encodeMap encodeStm s.tests with
    | error e => rw [hw] at h; cases h
    | ok ts =>
      rw [hw] at h
      cases h
      refine good_obj fun f hf => ?_
      obtain ⟨k, j⟩ := f
      rcases List.mem_append.1 hf with hf | hf
      · rw [mem_field hf]; exact (good_types hv).mono (by omega)
      · rw [mem_field hf]; exact good_map hw fun _ _ => good_stm

theorem good_makeStms {i j : Json} (h : makeStmsProgram i = .ok j) : Good 9 j := by
  unfold makeStmsProgram at h
  cases hd : Json.decodeSuite i with
  | error e => rw [hd] at h; cases h
  | ok s =>
    rw [hd] at h
    simp only at h
    cases hf : Validate.fullSuite s with
    | error e => rw [hf] at h; cases h
    | ok vs =>
      rw [hf] at h
      simp only at h
      cases hb : Builder.zero.buildSuite vs with
      | error e => rw [hb] at h; cases h
      | ok p =>
        obtain ⟨b, stms⟩ := p
        rw [hb] at h
        exact good_stmSuite h

/-! ### traces -/

theorem encodeEvent_ok (e : Option Event) : ∃ ev, encodeEvent e = .ok ev ∧ ∀ k j, (k, j) ∈ ev → ∃ s, j = .str s := by
  cases e with
  | none => exact ⟨[], rfl, by simp⟩
  | some e =>
    obtain ⟨s, hs⟩ : ∃ s, e.marshalText = .ok s := by
      unfold Event.marshalText
      split
      · exact ⟨_, rfl⟩
      · cases hv : e.value with
        | none => simp_all [Value.isEmpty]
        | int i => exact ⟨_, rfl⟩
        | enum s => exact ⟨_, rfl⟩
    refine ⟨[(c!"event", .str s)], by simp [encodeEvent, hs], ?_⟩
    intro k j h
    simp only [List.mem_singleton, Prod.mk.injEq] at h
    exact ⟨s, h.2⟩

theorem encodeNode_branch (name : Str) : ∀ (l : List (Outcome × Option Event)) (o : Outcome) (e : Option Event),
    ∃ j, encodeNode { id := [], tests := [name], outcome := o, event := e, next := branch name l } = .ok j ∧
      depth j = 2 * l.length + 2 ∧ NumbersOK j := by
  intro l
  have key : ∀ (o : Outcome) (ev : List (Str × Json)) (ns : List Json) (d : Nat), (∀ k j, (k, j) ∈ ev → ∃ s, j = .str s) →
      (ns = [] ∧ d = 0 ∨ ∃ x, ns = [x] ∧ NumbersOK x ∧ depth x = d) →
      depth (.obj (field c!"id" true (.str []) ++ field c!"tests" false (.arr [.str name])
            ++ field c!"outcome" (o.val = 0) (.str o.string) ++ ev ++ field c!"next" (ns.length = 0) (.arr ns))) = d + 2 ∧
      NumbersOK (.obj (field c!"id" true (.str []) ++ field c!"tests" false (.arr [.str name])
            ++ field c!"outcome" (o.val = 0) (.str o.string) ++ ev ++ field c!"next" (ns.length = 0) (.arr ns))) := by
    intro o ev ns d hev hns
    have hmem : ∀ f ∈ (field c!"id" true (.str []) ++ field c!"tests" false (.arr [.str name])
            ++ field c!"outcome" (o.val = 0) (.str o.string) ++ ev ++ field c!"next" (ns.length = 0) (.arr ns)),
        Good (d + 1) f.2 := by
      rintro ⟨k, j⟩ hf
      simp only [List.mem_append] at hf
      rcases hf with (((hf | hf) | hf) | hf) | hf
      · rw [mem_field hf]; exact good_str _ _
      · rw [mem_field hf]
        exact Good.mono (n := 1) (good_arr fun x hx => by rw [List.mem_singleton.1 hx]; exact good_str _ _) (by omega)
      · rw [mem_field hf]; exact good_str _ _
      · obtain ⟨s, rfl⟩ := hev k j hf; exact good_str _ _
      · rw [mem_field hf]
        refine good_arr fun x hx => ?_
        rcases hns with ⟨rfl, _⟩ | ⟨y, rfl, hy, rfl⟩
        · simp at hx
        · rw [List.mem_singleton.1 hx]; exact ⟨le_refl _, hy⟩
    obtain ⟨h1, h2⟩ := good_obj hmem
    refine ⟨Nat.le_antisymm h1 ?_, h2⟩
    rcases hns with ⟨rfl, rfl⟩ | ⟨y, rfl, hy, rfl⟩
    · have : depth (.arr [.str name]) ≤ depthFields (field c!"id" true (.str []) ++ field c!"tests" false (.arr [.str name])
            ++ field c!"outcome" (o.val = 0) (.str o.string) ++ ev ++ field c!"next" (([] : List Json).length = 0) (.arr [])) :=
        depthFields_le.1 (le_refl _) (c!"tests", .arr [.str name]) (by simp [field])
      simp only [depth, depthElems] at this ⊢
      omega
    · have : depth (.arr [y]) ≤ depthFields (field c!"id" true (.str []) ++ field c!"tests" false (.arr [.str name])
            ++ field c!"outcome" (o.val = 0) (.str o.string) ++ ev ++ field c!"next" (([y] : List Json).length = 0) (.arr [y])) :=
        depthFields_le.1 (le_refl _) (c!"next", .arr [y]) (by simp [field])
      simp only [depth, depthElems] at this ⊢
      omega
  induction l with
  | nil =>
    intro o e
    obtain ⟨ev, hev, hs⟩ := encodeEvent_ok e
    obtain ⟨h1, h2⟩ := key o ev [] 0 hs (.inl ⟨rfl, rfl⟩)
    exact ⟨_, by simp only [encodeNode, hev, branch, encodeNode.encodeNodes]; rfl, h1, h2⟩
  | cons oe l ih =>
    obtain ⟨o', e'⟩ := oe
    intro o e
    obtain ⟨ev, hev, hs⟩ := encodeEvent_ok e
    obtain ⟨x, hx, hd, hn⟩ := ih o' e'
    obtain ⟨h1, h2⟩ := key o ev [x] _ hs (.inr ⟨x, rfl, hn, hd⟩)
    refine ⟨_, by rw [encodeNode]; simp only [hev, branch, encodeNode.encodeNodes, hx]; rfl, ?_, h2⟩
    exact h1.trans (by simp only [List.length_cons]; omega)

theorem encodeNode_expand (t : Forbidden) (name : Str) :
    ∃ j, encodeNode (t.expand name) = .ok j ∧ depth j = 2 * t.pre.length + 6 ∧ NumbersOK j := by
  rw [expand_eq]
  obtain ⟨j, h1, h2, h3⟩ := encodeNode_branch name (spineOf t) oUnset none
  exact ⟨j, h1, h2.trans (by simp [spineOf]; omega), h3⟩

theorem encodeEntries_total {α : Type} {enc : α → Res Json} (m : GoMap Str α) (h : ∀ x ∈ m, ∃ j, enc x.2 = .ok j) :
    ∃ fs, encodeEntries enc m = .ok fs := by
  induction m with
  | nil => exact ⟨[], rfl⟩
  | cons x m ih =>
    obtain ⟨j, hj⟩ := h x (by simp)
    obtain ⟨fs, hfs⟩ := ih fun y hy => h y (by simp [hy])
    exact ⟨(x.1, j) :: fs, by simp [encodeEntries, hj, hfs]⟩

theorem readTraces_json {file : Str} {traces : List Forbidden} (h : Forbidden.read file = some (.ok traces)) :
    ∃ j, readTracesProgram file = .ok j ∧ NumbersOK j ∧
      ∀ n, depth j ≤ n + 1 ↔ ∀ f ∈ traces, 2 * f.pre.length + 6 ≤ n := by
  obtain ⟨names, hl, hna, hnd, _, _⟩ := nameAll_spec traces
  have hwf : GoMap.WF (names.zip traces) := by
    unfold GoMap.WF; rw [List.map_fst_zip (by omega)]; exact hnd
  have hsnd : (names.zip traces).map (·.2) = traces := List.map_snd_zip (by omega)
  have hms : (Forbidden.expandAll (names.zip traces)).map (fun kn => (kn.1, some kn.2)) =
      (names.zip traces).map fun kt => (kt.1, some (kt.2.expand kt.1)) := by
    rw [expandAll_eq _ hwf, List.map_map]; rfl
  obtain ⟨fs, hfs⟩ := encodeEntries_total (enc := encodeNodePtr) ((names.zip traces).map fun kt => (kt.1, some (kt.2.expand kt.1))) (by
    intro x hx
    obtain ⟨⟨k, f⟩, _, rfl⟩ := List.mem_map.1 hx
    obtain ⟨j, hj, _⟩ := encodeNode_expand f k
    exact ⟨j, hj⟩)
  have hF := encodeEntries_ok_iff.1 hfs
  have hget : ∀ (i : Nat) (h1 : i < fs.length), ∃ h2 : i < traces.length,
      depth fs[i].2 = 2 * traces[i].pre.length + 6 ∧ NumbersOK fs[i].2 := by
    intro i h1
    have hlen := hF.length_eq
    rw [List.length_map, List.length_zip] at hlen
    have h2 : i < traces.length := by omega
    refine ⟨h2, ?_⟩
    have hg := (hF.get (i := i) (by rw [hF.length_eq]; exact h1) h1).2
    simp only [List.get_eq_getElem, List.getElem_map, List.getElem_zip] at hg
    obtain ⟨j, hj, hd, hn⟩ := encodeNode_expand traces[i] (names[i]'(by omega))
    have e : fs[i].2 = j := by
      have := hg.symm.trans (show encodeNodePtr (some _) = .ok j from hj)
      exact Except.ok.inj this
    rw [e]
    exact ⟨hd, hn⟩
  refine ⟨.obj (sortFields fs), ?_, ?_, ?_⟩
  · unfold readTracesProgram
    rw [h]
    simp only [Option.getD_some, hna]
    rw [hms]
    unfold encodeSuite encodeMap
    rw [hfs]
    rfl
  · simp only [NumbersOK]
    refine numbersFields_iff.2 fun f hf => ?_
    have hf := (sortFields_perm fs).mem_iff.1 hf
    obtain ⟨i, hi, rfl⟩ := List.mem_iff_getElem.1 hf
    exact (hget i hi).2.2
  · intro n
    simp only [depth]
    rw [Nat.add_le_add_iff_right, depthFields_le]
    constructor
    · intro hall f hf
      obtain ⟨i, hi, rfl⟩ := List.mem_iff_getElem.1 hf
      have hlen := hF.length_eq
      rw [List.length_map, List.length_zip] at hlen
      have hi' : i < fs.length := by omega
      obtain ⟨_, hd, _⟩ := hget i hi'
      rw [← hd]
      exact hall _ ((sortFields_perm fs).mem_iff.2 (List.getElem_mem hi'))
    · intro hall f hf
      have hf := (sortFields_perm fs).mem_iff.1 hf
      obtain ⟨i, hi, rfl⟩ := List.mem_iff_getElem.1 hf
      obtain ⟨h2, hd, _⟩ := hget i hi
      rw [hd]
      exact hall _ (List.getElem_mem h2)

end Rtcg.JsonText
