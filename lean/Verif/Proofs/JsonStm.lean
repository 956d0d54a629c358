import Verif.Proofs.Json

/-
Saving and loading state machines.
-/

namespace Rtcg

open Rtcg.Spec

namespace Json

theorem isField_same (n : Str) : isField n n = true := by simp [isField]

theorem decodeEntries_wf {α : Type} {dec : Json → Res α} {acc m : GoMap Str α} {fs : List (Str × Json)} (ha : GoMap.WF acc)
    (h : decodeEntries dec acc fs = .ok m) : GoMap.WF m := by
  induction fs generalizing acc with
  | nil => simp only [decodeEntries, Except.ok.injEq] at h; exact h ▸ ha
  | cons x fs ih =>
    obtain ⟨k, j⟩ := x
    simp only [decodeEntries] at h
    cases hj : dec j with
    | error f => rw [hj] at h; simp at h
    | ok a => rw [hj] at h; exact ih (GoMap.wf_set ha k a) h

theorem decodeMap_wf {α : Type} {dec : Json → Res α} {j : Json} {m : GoMap Str α} (h : decodeMap dec j = .ok m) : GoMap.WF m := by
  cases j with
  | null => simp only [decodeMap, Except.ok.injEq] at h; subst h; exact GoMap.wf_nil
  | obj fs => exact decodeEntries_wf GoMap.wf_nil h
  | _ => simp [decodeMap, throwErr] at h

theorem survives_congr {α : Type} {enc : α → Res Json} {dec : Json → Res α} {R R' : α → α → Prop} {a : α}
    (h : ∀ j a', dec j = .ok a' → (R a a' ↔ R' a a')) : Survives enc dec R a ↔ Survives enc dec R' a := by
  unfold Survives
  constructor
  · rintro ⟨j, a', h1, h2, h3⟩; exact ⟨j, a', h1, h2, (h j a' h2).1 h3⟩
  · rintro ⟨j, a', h1, h2, h3⟩; exact ⟨j, a', h1, h2, (h j a' h2).2 h3⟩

theorem map_survives {α : Type} {enc : α → Res Json} {dec : Json → Res α} {R : α → α → Prop} {m : GoMap Str α}
    (hm : GoMap.WF m) : Survives (encodeMap enc) (decodeMap dec) (SameMap R) m ↔ ∀ x ∈ m, Survives enc dec R x.2 := by
  rw [← map_survives_iff hm]
  exact survives_congr fun j a' h => ⟨fun h' => ⟨decodeMap_wf h, h'⟩, fun h' => h'.2⟩

theorem forall₂_eq_iff {α : Type} {l l' : List α} : List.Forall₂ Eq l l' ↔ l = l' := by
  rw [List.forall₂_eq_eq_eq]

/-- Slices: the field is written as an array, or left out when empty. -/
theorem list_survives {α : Type} {enc : α → Res Json} {dec : Json → Res α} {R : α → α → Prop} {l : List α} :
    (∃ js l', encodeElems enc l = .ok js ∧ decodeElems dec js = .ok l' ∧ List.Forall₂ R l l') ↔ ∀ a ∈ l, Survives enc dec R a :=
  elems_survive_iff

/-! ### transitions -/

theorem transition_survives (t : Transition) : Survives encodeTransition decodeTransition Eq t ↔ GoodValue t.value := by
  rw [← C06_value_roundtrip]
  obtain ⟨v, next⟩ := t
  unfold Survives encodeTransition
  simp only
  cases hv : v.marshalText with
  | error f => simp
  | ok s =>
    simp only [Except.ok.injEq, exists_eq_left']
    have hd : decodeTransition (.obj ((c!"value", .str s) :: field c!"next" (decide (next = [])) (.str next))) =
        (Value.unmarshalText s).map (fun x => (⟨x, next⟩ : Transition)) := by
      unfold decodeTransition decodeStruct
      simp only [decodeFields, decodeTransitionField, isField_same, if_true, decodeValue]
      cases Value.unmarshalText s with
      | error f => rfl
      | ok x =>
        simp only [Except.map]
        unfold field
        by_cases hn : next = []
        · subst hn; rfl
        · rw [if_neg (by simpa using hn)]
          simp only [decodeFields, decodeTransitionField, isField_same]
          rw [if_neg (by decide), if_pos trivial]
          rfl
    constructor
    · rintro ⟨j, a, rfl, h2, rfl⟩
      rw [hd] at h2
      cases hx : Value.unmarshalText s with
      | error f => rw [hx] at h2; simp [Except.map] at h2
      | ok x => rw [hx] at h2; simpa [Except.map] using h2
    · intro h
      exact ⟨_, _, rfl, by rw [hd, h]; rfl, rfl⟩

theorem decodeTSet_eq (c : Channel) (ts : List Json) :
    decodeTSet (.obj ((c!"channel", .str c.marshalText) :: field c!"transitions" (decide (ts.length = 0)) (.arr ts))) =
      match Channel.unmarshalText Channel.zero c.marshalText with
      | (_, some f) => .error f
      | (c', none) => (decodeElems decodeTransition ts).map (fun x => (⟨c', x⟩ : TSet)) := by
  unfold decodeTSet decodeStruct
  simp only [decodeFields, decodeTSetField, isField_same, if_true, decodeChannel]
  cases Channel.unmarshalText Channel.zero c.marshalText with
  | mk c' o =>
    cases o with
    | some f => rfl
    | none =>
      simp only [Except.map]
      unfold field
      cases ts with
      | nil => rfl
      | cons t ts =>
        rw [if_neg (by simp)]
        simp only [decodeFields, decodeTSetField, isField_same]
        rw [if_neg (by decide), if_pos trivial]
        simp only [decodeList]
        cases decodeElems decodeTransition (t :: ts) with
        | error f => rfl
        | ok x => rfl

theorem tset_survives (t : TSet) :
    Survives encodeTSet decodeTSet Eq t ↔ GoodChannel t.channel ∧ ∀ x ∈ t.transitions, GoodValue x.value := by
  obtain ⟨c, tr⟩ := t
  simp only
  have h1 : (∀ x ∈ tr, GoodValue x.value) ↔ ∀ x ∈ tr, Survives encodeTransition decodeTransition Eq x := by
    simp only [transition_survives]
  rw [h1, ← list_survives, ← C02_channel_roundtrip c Channel.zero]
  simp only [forall₂_eq_iff]
  unfold Survives encodeTSet
  simp only
  cases ht : encodeElems encodeTransition tr with
  | error f => simp
  | ok ts =>
    simp only [Except.ok.injEq]
    constructor
    · rintro ⟨j, a, rfl, h2, rfl⟩
      rw [decodeTSet_eq] at h2
      cases hc : Channel.unmarshalText Channel.zero c.marshalText with
      | mk c' o =>
        rw [hc] at h2
        cases o with
        | some f => simp at h2
        | none =>
          simp only at h2
          cases hd : decodeElems decodeTransition ts with
          | error f => rw [hd] at h2; simp [Except.map] at h2
          | ok x =>
            rw [hd] at h2
            simp only [Except.map, Except.ok.injEq, TSet.mk.injEq] at h2
            exact ⟨by rw [h2.1], ts, x, rfl, hd, h2.2.symm⟩
    · rintro ⟨hc, js, l', rfl, hd, rfl⟩
      exact ⟨_, _, rfl, by rw [decodeTSet_eq, hc]; simp only [hd, Except.map], rfl⟩

/-! ### verdicts -/

/-- Decoding one entry of a verdict. -/
def decodeOutcomeText (j : Json) : Res Outcome :=
  match decodeStr [] j with
  | .error f => .error f
  | .ok s => Outcome.parse s

theorem verdictLoop_ok_iff {acc v : Verdict} {m : GoMap Str Str} (hn : (acc.keys ++ m.map (·.1)).Nodup) :
    decodeVerdictLoop acc m = .ok v ↔ ∃ r, v = acc ++ r ∧ List.Forall₂ (fun x y => x.1 = y.1 ∧ Outcome.parse x.2 = .ok y.2) m r := by
  have he : decodeVerdictLoop acc m = decodeEntries decodeOutcomeText acc (m.map fun x => (x.1, .str x.2)) := by
    clear hn
    induction m generalizing acc with
    | nil => rfl
    | cons x m ih =>
      obtain ⟨k, s⟩ := x
      simp only [decodeVerdictLoop, List.map_cons, decodeEntries, decodeOutcomeText, decodeStr]
      cases Outcome.parse s with
      | error f => rfl
      | ok o => exact ih
  rw [he, decodeEntries_ok_iff (by simpa [List.map_map, Function.comp_def] using hn)]
  simp only [List.forall₂_map_left_iff, decodeOutcomeText, decodeStr]

theorem decodeVerdict_ok_iff {fs : List (Str × Json)} (hfs : GoMap.WF fs) {v : Verdict} :
    decodeVerdict (.obj fs) = .ok v ↔ decodeMap decodeOutcomeText (.obj fs) = .ok v := by
  unfold decodeVerdict
  simp only [decodeMap]
  have hn : (GoMap.keys ([] : Verdict) ++ fs.map (·.1)).Nodup := by simpa [GoMap.keys, GoMap.WF] using hfs
  have hn' : (GoMap.keys ([] : GoMap Str Str) ++ fs.map (·.1)).Nodup := by simpa [GoMap.keys, GoMap.WF] using hfs
  rw [decodeEntries_ok_iff hn]
  constructor
  · intro h
    cases hd : decodeEntries (decodeStr []) [] fs with
    | error f => rw [hd] at h; simp at h
    | ok m =>
      rw [hd] at h
      rw [decodeEntries_ok_iff hn'] at hd
      obtain ⟨m', e, hm⟩ := hd
      rw [List.nil_append] at e
      subst e
      have hk := forall₂_keys (R := fun j (a : Str) => decodeStr [] j = .ok a) hm
      simp only at h
      rw [verdictLoop_ok_iff (by simp only [GoMap.keys, List.map_nil, List.nil_append]; rw [← hk]; exact hfs)] at h
      obtain ⟨r, hr, h⟩ := h
      refine ⟨r, hr, ?_⟩
      clear hk hr hn hn' hfs
      induction hm generalizing r with
      | nil => cases h; exact .nil
      | cons hx _ ih =>
        cases h with
        | cons h1 h2 =>
          refine .cons ⟨hx.1.trans h1.1, ?_⟩ (ih _ h2)
          simp only [decodeOutcomeText, hx.2, h1.2]
  · rintro ⟨r, hr, h⟩
    have hs : ∃ m, List.Forall₂ (fun x y => x.1 = y.1 ∧ decodeStr [] x.2 = .ok y.2) fs m ∧
        List.Forall₂ (fun (x : Str × Str) (y : Str × Outcome) => x.1 = y.1 ∧ Outcome.parse x.2 = .ok y.2) m r := by
      clear hr hn hn' hfs
      induction h with
      | nil => exact ⟨[], .nil, .nil⟩
      | @cons x y l r hx _ ih =>
        obtain ⟨m, h1, h2⟩ := ih
        obtain ⟨he, hp⟩ := hx
        unfold decodeOutcomeText at hp
        cases hd : decodeStr [] x.2 with
        | error f => rw [hd] at hp; simp at hp
        | ok s =>
          rw [hd] at hp
          exact ⟨(x.1, s) :: m, .cons ⟨rfl, hd⟩ h1, .cons ⟨he, hp⟩ h2⟩
    obtain ⟨m, h1, h2⟩ := hs
    have hd : decodeEntries (decodeStr []) [] fs = .ok m := by
      rw [decodeEntries_ok_iff hn']; exact ⟨m, rfl, h1⟩
    rw [hd]
    have hk := forall₂_keys (R := fun j (a : Str) => decodeStr [] j = .ok a) h1
    simp only
    rw [verdictLoop_ok_iff (by simp only [GoMap.keys, List.map_nil, List.nil_append]; rw [← hk]; exact hfs)]
    exact ⟨r, hr, h2⟩

theorem verdict_survives {v : Verdict} (hv : GoMap.WF v) :
    Survives encodeVerdict decodeVerdict GoMap.Equiv v ↔ ∀ test o, (test, o) ∈ v → o ∈ [oUnset, oInc, oFail, oPass] := by
  have h1 : Survives encodeVerdict decodeVerdict GoMap.Equiv v ↔
      Survives (encodeMap fun o => .ok (.str o.string)) (decodeMap decodeOutcomeText) (SameMap Eq) v := by
    unfold Survives encodeVerdict
    simp only [sameMap_eq_iff]
    have hj : ∀ j, encodeMap (fun o : Outcome => .ok (.str o.string)) v = .ok j → ∃ fs, j = .obj fs ∧ GoMap.WF fs := by
      intro j hj
      unfold encodeMap at hj
      cases he : encodeEntries (fun o : Outcome => .ok (.str o.string)) v with
      | error f => rw [he] at hj; simp [Except.map] at hj
      | ok fs =>
        rw [he] at hj
        simp only [Except.map, Except.ok.injEq] at hj
        refine ⟨sortFields fs, hj.symm, ?_⟩
        rw [encodeEntries_ok_iff] at he
        have hk := forall₂_keys (R := fun (o : Outcome) j => (Except.ok (Json.str o.string) : Res Json) = .ok j) he
        have hfs : GoMap.WF fs := by unfold GoMap.WF; rw [← hk]; exact hv
        exact ((sortFields_perm fs).map _).nodup_iff.2 hfs
    constructor
    · rintro ⟨j, v', e1, e2, e3⟩
      obtain ⟨fs, rfl, hwf⟩ := hj j e1
      exact ⟨_, v', e1, (decodeVerdict_ok_iff hwf).1 e2, e3⟩
    · rintro ⟨j, v', e1, e2, e3⟩
      obtain ⟨fs, rfl, hwf⟩ := hj j e1
      exact ⟨_, v', e1, (decodeVerdict_ok_iff hwf).2 e2, e3⟩
  rw [h1, map_survives hv]
  have h2 : ∀ o : Outcome, Survives (fun o : Outcome => .ok (.str o.string)) decodeOutcomeText Eq o ↔
      o ∈ [oUnset, oInc, oFail, oPass] := by
    intro o
    constructor
    · rintro ⟨j, o', e1, e2, rfl⟩
      simp only [Except.ok.injEq] at e1
      subst e1
      exact outcome_parse_string e2
    · intro h
      exact ⟨_, _, rfl, outcome_declared h, rfl⟩
  simp only [h2, Prod.forall]

/-! ### types -/

theorem type_survives (t : Option RsType) :
    Survives encodeType decodeType Eq t ↔ ∀ x, t = some x → ∃ text, (x, text) ∈ typeTexts := by
  cases t with
  | none => simp [Survives, encodeType, decodeType]
  | some t =>
    simp only [Option.some.injEq, forall_eq']
    constructor
    · rintro ⟨j, t', e1, e2, rfl⟩
      unfold encodeType at e1
      cases hm : t.marshalText with
      | error f => simp [hm] at e1
      | ok s =>
        simp only [hm, Except.ok.injEq] at e1
        subst e1
        simp only [decodeType] at e2
        cases hu : RsType.unmarshalText s with
        | error f => simp [hu] at e2
        | ok t' =>
          simp only [hu, Except.ok.injEq, Option.some.injEq] at e2
          subst e2
          unfold RsType.unmarshalText at hu
          simp only at hu
          split at hu
          · cases hu; exact ⟨_, List.mem_cons_self⟩
          · split at hu
            · cases hu; exact ⟨_, List.mem_cons_of_mem _ List.mem_cons_self⟩
            · split at hu
              · cases hu; exact ⟨_, List.mem_cons_of_mem _ (List.mem_cons_of_mem _ List.mem_cons_self)⟩
              · split at hu
                · cases hu
                  exact ⟨_, List.mem_cons_of_mem _ (List.mem_cons_of_mem _ (List.mem_cons_of_mem _ List.mem_cons_self))⟩
                · split at hu
                  · cases hu
                    exact ⟨_, List.mem_cons_of_mem _ (List.mem_cons_of_mem _ (List.mem_cons_of_mem _ (List.mem_cons_of_mem _ List.mem_cons_self)))⟩
                  · simp [throwErr] at hu
    · rintro ⟨text, h⟩
      simp only [typeTexts, List.mem_cons, Prod.mk.injEq, List.not_mem_nil, or_false] at h
      rcases h with ⟨rfl, _⟩ | ⟨rfl, _⟩ | ⟨rfl, _⟩ | ⟨rfl, _⟩ | ⟨rfl, _⟩ <;> exact ⟨_, _, rfl, rfl, rfl⟩

theorem types_survive {m : TypeMap} (hm : GoMap.WF m) :
    Survives encodeTypes decodeTypes GoMap.Equiv m ↔ SavableTypes m := by
  have : Survives encodeTypes decodeTypes GoMap.Equiv m ↔ Survives encodeTypes decodeTypes (SameMap Eq) m :=
    survives_congr fun _ _ _ => sameMap_eq_iff.symm
  rw [this]
  unfold encodeTypes decodeTypes
  rw [show (fun j => decodeMap decodeType j) = decodeMap decodeType from rfl]
  rw [show (fun m => encodeMap encodeType m) = encodeMap encodeType from rfl, map_survives hm]
  simp only [type_survives]
  unfold SavableTypes
  constructor
  · intro h name t hx; exact h _ hx t rfl
  · rintro h ⟨name, o⟩ hx t rfl; exact h name t hx

/-! ### sets -/

theorem set_survives {s : GoSet Str} (hs : GoMap.WF s) :
    ∃ s', decodeSet (encodeSet s) = .ok s' ∧ (GoSet.values s).Perm (GoSet.values s') := by
  refine ⟨GoSet.add [] (GoSet.values s), by simp only [decodeSet, encodeSet, decodeList, decodeElems_strs, Except.map], ?_⟩
  have hv : (GoSet.values s).Nodup := by
    unfold GoSet.values
    exact List.Nodup.sublist ((List.filter_sublist).map _) hs
  have h := C41_set [GoSet.values s] (GoSet.add [] (GoSet.values s)) (by simp [GoSet.add])
  refine (List.perm_ext_iff_of_nodup hv h.1).2 ?_
  intro x
  rw [h.2 x]
  simp

/-! ### states, machines -/

theorem decodeState_eq (id : Str) (ts : List Json) (v : Json) :
    decodeState (.obj ((c!"id", .str id) :: (field c!"transitionSets" (decide (ts.length = 0)) (.arr ts) ++ [(c!"verdicts", v)]))) =
      match decodeElems decodeTSet ts with
      | .error f => .error f
      | .ok x => (decodeVerdict v).map (fun y => (⟨id, x, y⟩ : State)) := by
  unfold decodeState
  simp only [decodeFields, decodeStateField, isField_same, if_true, decodeStr, Except.map]
  have hv : ∀ s : State, decodeFields decodeStateField s [(c!"verdicts", v)] = (decodeVerdict v).map (fun y => { s with verdict := y }) := by
    intro s
    simp only [decodeFields, decodeStateField, isField_same]
    rw [if_neg (by decide), if_neg (by decide), if_pos trivial]
    cases decodeVerdict v with
    | error f => rfl
    | ok y => rfl
  unfold field
  cases ts with
  | nil =>
    rw [if_pos (by decide), List.nil_append, hv]
    rfl
  | cons t ts =>
    rw [if_neg (by simp)]
    simp only [List.cons_append, List.nil_append]
    rw [decodeFields]
    simp only [decodeStateField, isField_same]
    rw [if_neg (by decide), if_pos trivial]
    simp only [decodeList]
    cases decodeElems decodeTSet (t :: ts) with
    | error f => rfl
    | ok x =>
      simp only [Except.map]
      rw [hv]
      rfl

theorem state_survives {s : State} (hv : GoMap.WF s.verdict) : Survives encodeState decodeState SameState s ↔ SavableState s := by
  obtain ⟨id, sets, v⟩ := s
  unfold SavableState
  simp only at hv ⊢
  have h1 : (∀ ts ∈ sets, GoodChannel ts.channel ∧ ∀ t ∈ ts.transitions, GoodValue t.value) ↔
      ∀ ts ∈ sets, Survives encodeTSet decodeTSet Eq ts := by simp only [tset_survives]
  rw [h1, ← list_survives, ← verdict_survives hv]
  simp only [forall₂_eq_iff]
  unfold Survives encodeState SameState
  simp only
  cases ht : encodeElems encodeTSet sets with
  | error f => simp
  | ok ts =>
    simp only [Except.ok.injEq]
    cases hvj : encodeVerdict v with
    | error f => simp
    | ok vj =>
      simp only [Except.ok.injEq]
      constructor
      · rintro ⟨j, a, rfl, h2, hid, hs, he⟩
        rw [decodeState_eq] at h2
        cases hd : decodeElems decodeTSet ts with
        | error f => rw [hd] at h2; simp at h2
        | ok x =>
          rw [hd] at h2
          simp only at h2
          cases hw : decodeVerdict vj with
          | error f => rw [hw] at h2; simp [Except.map] at h2
          | ok y =>
            rw [hw] at h2
            simp only [Except.map, Except.ok.injEq] at h2
            subst h2
            exact ⟨⟨ts, x, rfl, hd, hs⟩, vj, y, rfl, hw, he⟩
      · rintro ⟨⟨ts', x, rfl, hd, rfl⟩, vj', y, rfl, hw, he⟩
        exact ⟨_, ⟨id, sets, y⟩, rfl, by rw [decodeState_eq, hd]; simp only [hw, Except.map], rfl, rfl, he⟩

theorem decodeStm_eq (ss : List Json) (ty te : Json) :
    decodeStm (.obj [(c!"states", .arr ss), (c!"types", ty), (c!"tests", te)]) =
      match decodeElems decodeState ss with
      | .error f => .error f
      | .ok x =>
        match decodeTypes ty with
        | .error f => .error f
        | .ok y => (decodeSet te).map (fun z => (⟨x, y, z⟩ : Stm)) := by
  unfold decodeStm
  simp only [decodeFields, decodeStmField, isField_same, if_true, decodeList]
  cases decodeElems decodeState ss with
  | error f => rfl
  | ok x =>
    simp only [Except.map]
    rw [if_neg (by decide)]
    cases decodeTypes ty with
    | error f => rfl
    | ok y =>
      simp only
      rw [if_neg (by decide), if_neg (by decide)]
      cases decodeSet te with
      | error f => rfl
      | ok z => rfl

theorem stm_survives {m : Stm} (hm : StmMaps m) : Survives encodeStm decodeStm SameStm m ↔ SavableStm m := by
  obtain ⟨states, types, tests⟩ := m
  obtain ⟨h1, h2, h3⟩ := hm
  simp only at h1 h2 h3
  unfold SavableStm
  simp only
  have e1 : (∀ s ∈ states, SavableState s) ↔ ∀ s ∈ states, Survives encodeState decodeState SameState s :=
    ⟨fun h s hs => (state_survives (h1 s hs)).2 (h s hs), fun h s hs => (state_survives (h1 s hs)).1 (h s hs)⟩
  rw [e1, ← list_survives, ← types_survive h2]
  obtain ⟨tests', ht1, ht2⟩ := set_survives h3
  unfold Survives encodeStm SameStm
  simp only
  cases hs : encodeElems encodeState states with
  | error f => simp
  | ok ss =>
    simp only [Except.ok.injEq]
    cases hty : encodeTypes types with
    | error f => simp
    | ok ty =>
      simp only [Except.ok.injEq]
      constructor
      · rintro ⟨j, a, rfl, hd, g1, g2, g3⟩
        rw [decodeStm_eq, ht1] at hd
        cases hx : decodeElems decodeState ss with
        | error f => rw [hx] at hd; simp at hd
        | ok x =>
          rw [hx] at hd
          simp only at hd
          cases hy : decodeTypes ty with
          | error f => rw [hy] at hd; simp at hd
          | ok y =>
            rw [hy] at hd
            simp only [Except.map, Except.ok.injEq] at hd
            subst hd
            exact ⟨⟨ss, x, rfl, hx, g1⟩, ty, y, rfl, hy, g2⟩
      · rintro ⟨⟨ss', x, rfl, hx, g1⟩, ty', y, rfl, hy, g2⟩
        exact ⟨_, ⟨x, y, tests'⟩, rfl, by rw [decodeStm_eq, hx, hy, ht1]; rfl, g1, g2, ht2⟩

theorem encodeMap_nil {α : Type} (enc : α → Res Json) : encodeMap enc ([] : GoMap Str α) = .ok (.obj []) := by
  simp [encodeMap, encodeEntries, Except.map, sortFields]

theorem decodeMap_nil {α : Type} (dec : Json → Res α) : decodeMap dec (.obj []) = .ok [] := rfl

theorem encodeMap_nonempty {α : Type} {enc : α → Res Json} {m : GoMap Str α} {j : Json} (h : encodeMap enc m = .ok j) :
    (m.length = 0 → j = .obj []) := by
  intro h0
  rw [List.length_eq_zero_iff] at h0
  subst h0
  rw [encodeMap_nil] at h
  simpa using h.symm

theorem decodeStmSuite_eq {s : StmSuite} {ty te : Json} (hty : encodeTypes s.types = .ok ty)
    (hte : encodeMap encodeStm s.tests = .ok te) :
    decodeStmSuite (.obj (field c!"types" (decide (s.types.length = 0)) ty ++ field c!"tests" (decide (s.tests.length = 0)) te)) =
      match decodeTypes ty with
      | .error f => .error f
      | .ok x => (decodeMap decodeStm te).map (fun y => (⟨x, y⟩ : StmSuite)) := by
  unfold decodeStmSuite decodeStruct
  simp only
  have h2 : ∀ s0 : StmSuite, s0.tests = [] →
      decodeFields decodeStmSuiteField s0 (field c!"tests" (decide (s.tests.length = 0)) te) =
        (decodeMap decodeStm te).map (fun y => { s0 with tests := y }) := by
    intro s0 h0
    unfold field
    by_cases hl : s.tests.length = 0
    · rw [if_pos (by simpa using hl), encodeMap_nonempty hte hl, decodeMap_nil]
      simp only [decodeFields, Except.map]
      rw [← h0]
    · rw [if_neg (by simpa using hl)]
      simp only [decodeFields, decodeStmSuiteField, isField_same]
      rw [if_neg (by decide), if_pos trivial]
      cases decodeMap decodeStm te with
      | error f => rfl
      | ok y => rfl
  by_cases hl : s.types.length = 0
  · have hz : ty = .obj [] := encodeMap_nonempty hty hl
    rw [show field c!"types" (decide (s.types.length = 0)) ty = [] by unfold field; rw [if_pos (by simpa using hl)]]
    rw [List.nil_append, h2 _ rfl, hz]
    rfl
  · rw [show field c!"types" (decide (s.types.length = 0)) ty = [(c!"types", ty)] by unfold field; rw [if_neg (by simpa using hl)]]
    rw [List.singleton_append, decodeFields]
    simp only [decodeStmSuiteField, isField_same, if_true]
    cases decodeTypes ty with
    | error f => rfl
    | ok x =>
      simp only [Except.map]
      rw [h2 _ rfl]
      rfl

theorem stmSuite_survives {s : StmSuite} (ht : GoMap.WF s.types) (hs : GoMap.WF s.tests) (hm : ∀ x ∈ s.tests, StmMaps x.2) :
    Survives encodeStmSuite decodeStmSuite SameStmSuite s ↔ SavableTypes s.types ∧ ∀ x ∈ s.tests, SavableStm x.2 := by
  have e1 : (∀ x ∈ s.tests, SavableStm x.2) ↔ ∀ x ∈ s.tests, Survives encodeStm decodeStm SameStm x.2 :=
    ⟨fun h x hx => (stm_survives (hm x hx)).2 (h x hx), fun h x hx => (stm_survives (hm x hx)).1 (h x hx)⟩
  rw [e1, ← map_survives hs, ← types_survive ht]
  unfold Survives encodeStmSuite SameStmSuite
  cases hty : encodeTypes s.types with
  | error f => simp
  | ok ty =>
    simp only [Except.ok.injEq]
    cases hte : encodeMap encodeStm s.tests with
    | error f => simp
    | ok te =>
      simp only [Except.ok.injEq]
      constructor
      · rintro ⟨j, a, rfl, hd, g1, g2⟩
        rw [decodeStmSuite_eq hty hte] at hd
        cases hx : decodeTypes ty with
        | error f => rw [hx] at hd; simp at hd
        | ok x =>
          rw [hx] at hd
          simp only at hd
          cases hy : decodeMap decodeStm te with
          | error f => rw [hy] at hd; simp [Except.map] at hd
          | ok y =>
            rw [hy] at hd
            simp only [Except.map, Except.ok.injEq] at hd
            subst hd
            exact ⟨⟨ty, x, rfl, hx, g1⟩, te, y, rfl, hy, g2⟩
      · rintro ⟨⟨ty', x, rfl, hx, g1⟩, te', y, rfl, hy, g2⟩
        exact ⟨_, ⟨x, y⟩, rfl, by rw [decodeStmSuite_eq hty hte, hx]; simp only [hy, Except.map], g1, g2⟩

end Json

end Rtcg
