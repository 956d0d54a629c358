import Verif.Proofs.JsonStm
import Verif.Props.StmSuite

/-
When state machines can be written at all.
-/

namespace Rtcg

open Rtcg.Spec

namespace Json

/-- Writing `a` succeeds when `P a`, and fails with `f` otherwise. -/
def Writes {α : Type} (enc : α → Res Json) (f : Fail) (P : α → Prop) (a : α) : Prop :=
  (P a ∧ ∃ j, enc a = .ok j) ∨ (¬ P a ∧ enc a = .error f)

theorem writes_elems {α : Type} {enc : α → Res Json} {f : Fail} {P : α → Prop} {l : List α} (h : ∀ a ∈ l, Writes enc f P a) :
    ((∀ a ∈ l, P a) ∧ ∃ js, encodeElems enc l = .ok js) ∨ (¬ (∀ a ∈ l, P a) ∧ encodeElems enc l = .error f) := by
  induction l with
  | nil => exact Or.inl ⟨by simp, [], rfl⟩
  | cons a l ih =>
    simp only [List.mem_cons, forall_eq_or_imp] at h ⊢
    rcases h.1 with ⟨hp, j, hj⟩ | ⟨hp, hj⟩
    · rcases ih h.2 with ⟨hps, js, hjs⟩ | ⟨hps, hjs⟩
      · exact Or.inl ⟨⟨hp, hps⟩, j :: js, by simp only [encodeElems, hj, hjs]⟩
      · exact Or.inr ⟨fun hh => hps hh.2, by simp only [encodeElems, hj, hjs]⟩
    · exact Or.inr ⟨fun hh => hp hh.1, by simp only [encodeElems, hj]⟩

theorem writes_map {α : Type} {enc : α → Res Json} {f : Fail} {P : α → Prop} {m : GoMap Str α} (h : ∀ x ∈ m, Writes enc f P x.2) :
    ((∀ x ∈ m, P x.2) ∧ ∃ j, encodeMap enc m = .ok j) ∨ (¬ (∀ x ∈ m, P x.2) ∧ encodeMap enc m = .error f) := by
  have key : ((∀ x ∈ m, P x.2) ∧ ∃ j, encodeEntries enc m = .ok j) ∨ (¬ (∀ x ∈ m, P x.2) ∧ encodeEntries enc m = .error f) := by
    induction m with
    | nil => exact Or.inl ⟨by simp, [], rfl⟩
    | cons x m ih =>
      obtain ⟨k, a⟩ := x
      simp only [List.mem_cons, forall_eq_or_imp] at h ⊢
      rcases h.1 with ⟨hp, j, hj⟩ | ⟨hp, hj⟩
      · rcases ih h.2 with ⟨hps, js, hjs⟩ | ⟨hps, hjs⟩
        · exact Or.inl ⟨⟨hp, hps⟩, (k, j) :: js, by simp only [encodeEntries, hj, hjs]⟩
        · exact Or.inr ⟨fun hh => hps hh.2, by simp only [encodeEntries, hj, hjs]⟩
      · exact Or.inr ⟨fun hh => hp hh.1, by simp only [encodeEntries, hj]⟩
  rcases key with ⟨hp, j, hj⟩ | ⟨hp, hj⟩
  · exact Or.inl ⟨hp, .obj (sortFields j), by unfold encodeMap; rw [hj]; rfl⟩
  · exact Or.inr ⟨hp, by unfold encodeMap; rw [hj]; rfl⟩

/-- No transition of the set lacks a value. -/
def Valued (t : TSet) : Prop := ∀ x ∈ t.transitions, x.value ≠ .none

theorem writes_transition (t : Transition) : Writes encodeTransition (.err .marshalAbsentValue) (fun t => t.value ≠ .none) t := by
  obtain ⟨v, next⟩ := t
  cases v with
  | none => exact Or.inr ⟨by simp, rfl⟩
  | int i => exact Or.inl ⟨by simp, _, rfl⟩
  | enum s => exact Or.inl ⟨by simp, _, rfl⟩

theorem writes_tset (t : TSet) : Writes encodeTSet (.err .marshalAbsentValue) Valued t := by
  rcases writes_elems (l := t.transitions) fun a _ => writes_transition a with ⟨hp, js, hj⟩ | ⟨hp, hj⟩
  · exact Or.inl ⟨hp, _, by unfold encodeTSet; rw [hj]⟩
  · exact Or.inr ⟨hp, by unfold encodeTSet; rw [hj]⟩

theorem encodeVerdict_total (v : Verdict) : ∃ j, encodeVerdict v = .ok j := by
  rcases writes_map (m := v) (enc := fun o => .ok (.str o.string)) (f := .panic) (P := fun _ => True)
    (fun x _ => Or.inl ⟨trivial, _, rfl⟩) with ⟨_, h⟩ | ⟨h, _⟩
  · exact h
  · exact absurd (fun _ _ => trivial) h

theorem writes_state (s : State) : Writes encodeState (.err .marshalAbsentValue) (fun s => ∀ t ∈ s.transitionSets, Valued t) s := by
  obtain ⟨jv, hv⟩ := encodeVerdict_total s.verdict
  rcases writes_elems (l := s.transitionSets) fun a _ => writes_tset a with ⟨hp, js, hj⟩ | ⟨hp, hj⟩
  · exact Or.inl ⟨hp, _, by unfold encodeState; rw [hj]; simp only [hv]; rfl⟩
  · exact Or.inr ⟨hp, by unfold encodeState; rw [hj]⟩

theorem writes_types {types : TypeMap} (hw : GoMap.WF types) (h : SavableTypes types) : ∃ j, encodeTypes types = .ok j := by
  obtain ⟨j, _, hj, _⟩ := (types_survive hw).2 h
  exact ⟨j, hj⟩

/-- No transition of the machine lacks a value. -/
def ValuedStm (m : Stm) : Prop := ∀ s ∈ m.states, ∀ t ∈ s.transitionSets, Valued t

theorem writes_stm {m : Stm} (hw : GoMap.WF m.types) (ht : SavableTypes m.types) :
    Writes encodeStm (.err .marshalAbsentValue) ValuedStm m := by
  obtain ⟨jt, hjt⟩ := writes_types hw ht
  rcases writes_elems (l := m.states) fun a _ => writes_state a with ⟨hp, js, hj⟩ | ⟨hp, hj⟩
  · exact Or.inl ⟨hp, _, by unfold encodeStm; rw [hj]; simp only [hjt]; rfl⟩
  · exact Or.inr ⟨hp, by unfold encodeStm; rw [hj]⟩

theorem writes_suite {s : StmSuite} (hw : GoMap.WF s.types) (ht : SavableTypes s.types)
    (hm : ∀ x ∈ s.tests, GoMap.WF x.2.types ∧ SavableTypes x.2.types) :
    Writes encodeStmSuite (.err .marshalAbsentValue) (fun s => ∀ x ∈ s.tests, ValuedStm x.2) s := by
  obtain ⟨jt, hjt⟩ := writes_types hw ht
  rcases writes_map (m := s.tests) fun x hx => writes_stm (hm x hx).1 (hm x hx).2 with ⟨hp, js, hj⟩ | ⟨hp, hj⟩
  · exact Or.inl ⟨hp, _, by unfold encodeStmSuite; rw [hjt]; simp only [hj]; rfl⟩
  · exact Or.inr ⟨hp, by unfold encodeStmSuite; rw [hjt]; simp only [hj]⟩

end Json

/-! ### the types of a machine have a text -/

theorem value_types (v : Value) : v.type = ⟨⟨0⟩, ⟨0⟩⟩ ∨ v.type = ⟨⟨2⟩, ⟨0⟩⟩ ∨ v.type = ⟨⟨1⟩, ⟨1⟩⟩ ∨ v.type = ⟨⟨1⟩, ⟨2⟩⟩ := by
  cases v with
  | none => exact Or.inl rfl
  | enum s => exact Or.inr (Or.inl rfl)
  | int i =>
    simp only [Value.type]
    split
    · exact Or.inr (Or.inr (Or.inl rfl))
    · exact Or.inr (Or.inr (Or.inr rfl))

theorem upper_has_text {S : RsType → Prop} {ty : RsType} (hS : ∀ y, S y → ∃ v : Value, y = v.type) (hne : ∃ y, S y)
    (hg : GoodType ty) (hl : LeastUpper S ty) : ∃ text, (ty, text) ∈ typeTexts := by
  obtain ⟨y, hy⟩ := hne
  have hyt := hl.1 y hy
  obtain ⟨v, hv⟩ := hS y hy
  obtain ⟨k, d⟩ := ty
  have hk := hyt.kind
  by_cases hk1 : k = ⟨1⟩
  · subst hk1
    have hint : SubType (⟨⟨1⟩, d⟩ : RsType) ⟨⟨1⟩, ⟨2⟩⟩ := by
      apply hl.2
      intro x hx
      have hxk : x.kind = ⟨1⟩ := (hl.1 x hx).kind
      obtain ⟨w, hw⟩ := hS x hx
      rcases value_types w with e | e | e | e <;> rw [e] at hw <;> subst hw
      · exact absurd hxk (by decide)
      · exact absurd hxk (by decide)
      · exact Or.inr ⟨rfl, rfl, by decide⟩
      · exact Or.inl rfl
    have hd2 : d.val ≤ 2 := by
      rcases hint with h | ⟨_, _, h⟩
      · rw [RsType.mk.injEq] at h; rw [h.2]; decide
      · exact h
    have hd1 : 1 ≤ d.val := by
      have hy1 : 1 ≤ y.domain.val := by
        rcases value_types v with e | e | e | e <;> rw [e] at hv <;> subst hv
        · exact absurd (show (⟨0⟩ : RsKind) = ⟨1⟩ from hk) (by decide)
        · exact absurd (show (⟨2⟩ : RsKind) = ⟨1⟩ from hk) (by decide)
        · decide
        · decide
      rcases hyt with h | ⟨_, _, h⟩
      · rw [h] at hy1; exact hy1
      · exact UInt8.le_trans hy1 h
    obtain ⟨dv⟩ := d
    simp only at hd1 hd2
    have : dv = 1 ∨ dv = 2 := by
      rw [UInt8.le_iff_toNat_le] at hd1 hd2
      have : dv.toNat = 1 ∨ dv.toNat = 2 := by
        have e1 : (1 : UInt8).toNat = 1 := rfl
        have e2 : (2 : UInt8).toNat = 2 := rfl
        omega
      rcases this with h | h
      · exact Or.inl (UInt8.toNat_inj.1 h)
      · exact Or.inr (UInt8.toNat_inj.1 h)
    rcases this with rfl | rfl
    · exact ⟨"nat".toList, by simp [typeTexts]⟩
    · exact ⟨"int".toList, by simp [typeTexts]⟩
  · have hd := hg hk1
    simp only at hd
    subst hd
    rcases value_types v with e | e | e | e <;> rw [e] at hv <;> subst hv <;> simp only at hk
    · subst hk; exact ⟨"()".toList, by simp [typeTexts]⟩
    · subst hk; exact ⟨"enum".toList, by simp [typeTexts]⟩
    · exact absurd hk.symm hk1
    · exact absurd hk.symm hk1

theorem savable_types {types : TypeMap} {S : Str → RsType → Prop} (hw : GoMap.WF types)
    (hS : ∀ name y, S name y → ∃ v : Value, y = v.type)
    (hne : ∀ name, types.get? name = none ↔ ¬ ∃ ty, S name ty)
    (hl : ∀ name x, types.get? name = some x → ∃ ty, x = some ty ∧ GoodType ty ∧ LeastUpper (S name) ty) : SavableTypes types := by
  intro name t ht
  have hget := GoMap.get?_of_mem hw ht
  obtain ⟨ty, he, hg, hlu⟩ := hl name _ hget
  simp only [Option.some.injEq] at he
  subst he
  refine upper_has_text (hS name) ?_ hg hlu
  by_contra hno
  rw [(hne name).2 hno] at hget
  cases hget

theorem savable_tinv {uses : List (Str × RsType)} {types : TypeMap} (h : TInv uses types)
    (hu : ∀ x ∈ uses, ∃ v : Value, x.2 = v.type) : SavableTypes types :=
  savable_types h.1 (S := fun name y => (name, y) ∈ uses) (fun _ _ h => hu _ h) (fun name => (h.2 name).1) fun name => (h.2 name).2

theorem usesOf_values (V : List (Path × Node)) : ∀ x ∈ usesOf V, ∃ v : Value, x.2 = v.type := by
  intro x hx
  unfold usesOf at hx
  rw [List.mem_filterMap] at hx
  obtain ⟨pn, _, he⟩ := hx
  cases hev : pn.2.event with
  | none => rw [hev] at he; simp at he
  | some e => rw [hev] at he; simp only [Option.map_some, Option.some.injEq] at he; subst he; exact ⟨e.value, rfl⟩

/-! ### the values of a machine are those of its tree -/

/-- No event of the tree lacks a value. -/
def ValuedTree (root : Node) : Prop := ∀ p n e, nodeAt root p = some n → n.event = some e → e.value ≠ .none

theorem valuedTree_same {a b : Node} (h : SameButIds a b) : ValuedTree a ↔ ValuedTree b := by
  have key : ∀ {a b : Node}, SameButIds a b → ValuedTree a → ValuedTree b := by
    intro a b h ha p n e hn he
    have hp := h p
    rw [hn] at hp
    cases hx : nodeAt a p with
    | none => rw [hx] at hp; simp at hp
    | some n' =>
      rw [hx] at hp
      simp only [Option.map_some, Option.some.injEq, Prod.mk.injEq] at hp
      exact ha p n' e hx (by rw [hp.2.2.1, he])
  exact ⟨key h, key fun p => (h p).symm⟩

theorem mem_branches {n : Node} {c : Channel} {t : Transition} : (c, t) ∈ branches n ↔
    ∃ k ∈ n.next, k.outcome ≠ oFail ∧ ∃ e, k.event = some e ∧ c = e.channel ∧ t = ⟨e.value, k.id⟩ := by
  unfold branches
  rw [List.mem_filterMap]
  constructor
  · rintro ⟨k, hk, he⟩
    by_cases ho : k.outcome = oFail
    · rw [if_pos ho] at he; cases he
    · rw [if_neg ho] at he
      cases hev : k.event with
      | none => rw [hev] at he; simp at he
      | some e =>
        rw [hev] at he
        simp only [Option.map_some, Option.some.injEq, Prod.mk.injEq] at he
        exact ⟨k, hk, ho, e, hev, he.1.symm, he.2.symm⟩
  · rintro ⟨k, hk, ho, e, he, rfl, rfl⟩
    exact ⟨k, hk, by rw [if_neg ho, he]; rfl⟩

theorem grouped_mem {adds : List (Channel × Transition)} {sets : List TSet} (h : Grouped adds sets) {t : Transition} :
    (∃ s ∈ sets, t ∈ s.transitions) ↔ ∃ c, (c, t) ∈ adds := by
  constructor
  · rintro ⟨s, hs, ht⟩
    rw [h.2 s hs, List.mem_map] at ht
    obtain ⟨⟨c, t'⟩, ha, rfl⟩ := ht
    exact ⟨c, (List.mem_filter.1 ha).1⟩
  · rintro ⟨c, ha⟩
    have : c ∈ sets.map (·.channel) := by
      rw [h.1, mem_firstUses]
      exact List.mem_map.2 ⟨_, ha, rfl⟩
    obtain ⟨s, hs, rfl⟩ := List.mem_map.1 this
    refine ⟨s, hs, ?_⟩
    rw [h.2 s hs]
    exact List.mem_map.2 ⟨_, List.mem_filter.2 ⟨ha, by simp⟩, rfl⟩

theorem children_snd (p : Path) (n : Node) : (n.children p).map (·.2) = n.next := by
  unfold Node.children
  apply List.ext_getElem <;> simp

theorem wellFormed_leaf {root : Node} (h : WellFormed root) : ∀ r m, nodeAt root r = some m → m.outcome = .fail → m.next = [] := by
  intro r m hm ho
  by_cases hr : r = []
  · subst hr
    simp only [nodeAt, Option.some.injEq] at hm
    subst hm
    have := h.1.2.1
    rw [ho] at this
    exact absurd this (by decide)
  · have := h.2 r m hr hm
    rcases this.2 with ⟨_, _, h3⟩ | ⟨h1, _⟩ | ⟨h1, _⟩
    · exact h3
    · rw [ho] at h1; exact absurd h1 (by decide)
    · rw [ho] at h1; exact absurd h1 (by decide)

theorem valuedStm_iff {root : Node} (hwf : WellFormed root) (ty : TypeMap) :
    Json.ValuedStm (machineOf (labelled root) ty) ↔ ValuedTree root := by
  have hwf' := (sameButIds_labelled root).wellFormed hwf
  rw [← valuedTree_same (sameButIds_labelled root)]
  generalize labelled root = L at hwf'
  have hsets : ∀ n : Node, ∀ t, (∃ s ∈ (pureState n).transitionSets, t ∈ s.transitions) ↔ ∃ c, (c, t) ∈ branches n := by
    intro n t
    rw [pureState_sets]
    exact grouped_mem (grouped_group _)
  constructor
  · intro h p n e hn he
    by_cases hp : p = []
    · subst hp
      simp only [nodeAt, Option.some.injEq] at hn
      subst hn
      rw [hwf'.1.1] at he
      cases he
    · have hno : n.outcome ≠ oFail := by
        intro ho
        rcases (hwf'.2 p n hp hn).2 with ⟨_, h2, _⟩ | ⟨h1, _⟩ | ⟨h1, _⟩
        · rw [h2] at he; cases he
        · rw [ho] at h1; exact absurd h1 (by decide)
        · rw [ho] at h1; exact absurd h1 (by decide)
      have hk := (mem_kids (wellFormed_leaf hwf')).2 ⟨hp, hn⟩
      unfold kids at hk
      obtain ⟨x, hx, hc⟩ := List.mem_flatMap.1 hk
      have hnext : n ∈ x.2.next := by
        have := children_snd x.1 x.2
        rw [← this]
        exact List.mem_map.2 ⟨_, hc, rfl⟩
      obtain ⟨s, hs, ht⟩ := (hsets x.2 ⟨e.value, n.id⟩).2 ⟨e.channel, mem_branches.2 ⟨n, hnext, hno, e, he, rfl, rfl⟩⟩
      exact h _ (List.mem_map.2 ⟨x, hx, rfl⟩) s hs _ ht
  · intro h s hs ts hts t ht
    obtain ⟨x, hx, rfl⟩ := List.mem_map.1 hs
    obtain ⟨c, hc⟩ := (hsets x.2 t).1 ⟨ts, hts, ht⟩
    obtain ⟨k, hk, _, e, he, _, rfl⟩ := mem_branches.1 hc
    have hk' : ∃ q, (q, k) ∈ kids (visit [] L) := by
      have hm : k ∈ (x.2.children x.1).map (·.2) := by rw [children_snd]; exact hk
      obtain ⟨y, hy, rfl⟩ := List.mem_map.1 hm
      exact ⟨y.1, List.mem_flatMap.2 ⟨x, hx, hy⟩⟩
    obtain ⟨q, hq⟩ := hk'
    exact h q k e (nodeAt_of_kid hq) he

end Rtcg
