import Verif.Proofs.StmSpec

namespace Rtcg

open Spec

/-- The types of a map are good least upper bounds of the listed uses. -/
def TInv (uses : List (Str × RsType)) (t : TypeMap) : Prop :=
  GoMap.WF t ∧ ∀ name, (GoMap.get? t name = none ↔ ¬ ∃ ty, (name, ty) ∈ uses) ∧
    ∀ x, GoMap.get? t name = some x → ∃ ty, x = some ty ∧ GoodType ty ∧ LeastUpper (fun y => (name, y) ∈ uses) ty

theorem tinv_nil : TInv [] [] := ⟨GoMap.wf_nil, fun name => ⟨by simp [GoMap.get?], by simp [GoMap.get?]⟩⟩

theorem Spec.SubType.kind {a b : RsType} (h : SubType a b) : a.kind = b.kind := by
  rcases h with rfl | ⟨h1, h2, _⟩
  · rfl
  · rw [h1, h2]

theorem Spec.SubType.antisymm {a b : RsType} (h : SubType a b) (h' : SubType b a) : a = b := by
  rcases h with rfl | ⟨h1, h2, h3⟩
  · rfl
  · rcases h' with rfl | ⟨_, _, h4⟩
    · rfl
    · obtain ⟨k, ⟨d⟩⟩ := a
      obtain ⟨k', ⟨d'⟩⟩ := b
      simp only at h1 h2 h3 h4
      have : d = d' := UInt8.le_antisymm h3 h4
      rw [h1, h2, this]

theorem Spec.SubType.trans {a b c : RsType} (h : SubType a b) (h' : SubType b c) : SubType a c := by
  rcases h with rfl | ⟨h1, h2, h3⟩
  · exact h'
  · rcases h' with rfl | ⟨_, h5, h4⟩
    · exact Or.inr ⟨h1, h2, h3⟩
    · exact Or.inr ⟨h1, h5, UInt8.le_trans h3 h4⟩

theorem Spec.LeastUpper.unique {S : RsType → Prop} {a b : RsType} (ha : LeastUpper S a) (hb : LeastUpper S b) : a = b :=
  SubType.antisymm (ha.2 b hb.1) (hb.2 a ha.1)

theorem good_valueType (v : Value) : GoodType v.type := by
  cases v with
  | none => intro _; rfl
  | int i => intro h; exfalso; apply h; simp only [Value.type]; split <;> rfl
  | enum s => intro _; rfl

theorem tinv_at {uses : List (Str × RsType)} {t : TypeMap} (h : TInv uses t) (n : Str) :
    ∀ ty, t.at_ n = some ty → GoodType ty := by
  intro ty hty
  unfold TypeMap.at_ at hty
  cases hg : GoMap.get? t n with
  | none => rw [hg] at hty; simp at hty
  | some x =>
    rw [hg] at hty
    simp only [Option.getD_some] at hty
    obtain ⟨ty', h1, h2, _⟩ := (h.2 n).2 x hg
    rw [hty] at h1; cases h1; exact h2

theorem tinv_step {uses : List (Str × RsType)} {t : TypeMap} (h : TInv uses t) (n : Str) (y : RsType) (hy : GoodType y) :
    (∃ u, RsType.unify (t.at_ n) (some y) = .ok (some u) ∧ TInv (uses ++ [(n, y)]) (GoMap.set t n (some u))) ∨
    (RsType.unify (t.at_ n) (some y) = throwErr .unifyDifferentKinds ∧ ∃ y', (n, y') ∈ uses ∧ y'.kind ≠ y.kind) := by
  -- how the invariant is re-established
  have fin : ∀ u, GoodType u → LeastUpper (fun z => (n, z) ∈ uses ++ [(n, y)]) u →
      TInv (uses ++ [(n, y)]) (GoMap.set t n (some u)) := by
    intro u hu hl
    refine ⟨GoMap.wf_set h.1 _ _, fun name => ?_⟩
    rw [GoMap.get?_set]
    by_cases e : n = name
    · subst e
      simp only [if_true]
      refine ⟨by simp, ?_⟩
      intro x hx
      cases hx
      exact ⟨u, rfl, hu, hl⟩
    · have e' : ¬ name = n := fun h => e h.symm
      rw [if_neg e]
      have h1 : ∀ z, (name, z) ∈ uses ++ [(n, y)] ↔ (name, z) ∈ uses := by
        intro z; simp [e']
      simp only [h1]
      exact h.2 name
  cases hg : GoMap.get? t n with
  | none =>
    left
    have hat : t.at_ n = none := by unfold TypeMap.at_; rw [hg]; rfl
    rw [hat]
    refine ⟨y, rfl, fin y hy ?_⟩
    have hno := (h.2 n).1.1 hg
    constructor
    · intro z hz
      rw [List.mem_append] at hz
      rcases hz with hz | hz
      · exact absurd ⟨z, hz⟩ hno
      · simp at hz; exact Or.inl hz
    · intro u hu
      exact hu y (by simp)
  | some x =>
    obtain ⟨ty, rfl, hgood, hlub⟩ := (h.2 n).2 x hg
    have hat : t.at_ n = some ty := by unfold TypeMap.at_; rw [hg]; rfl
    rw [hat]
    by_cases hk : ty.kind = y.kind
    · left
      have hok : ∃ u, RsType.unify (some ty) (some y) = .ok (some u) := by
        rw [unify_some, if_neg (by simp [hk])]
        split <;> exact ⟨_, rfl⟩
      obtain ⟨u, hu⟩ := hok
      have hlub' := C11_unify_lub (some ty) (some y) (some u) (fun t ht => by cases ht; exact hgood)
        (fun t ht => by cases ht; exact hy) hu
      have hgu : GoodType u := unify_good (a := some ty) (b := some y) (fun t ht => by cases ht; exact hgood)
        (fun t ht => by cases ht; exact hy) hu u rfl
      refine ⟨u, hu, fin u hgu ⟨?_, ?_⟩⟩
      · intro z hz
        rw [List.mem_append] at hz
        rcases hz with hz | hz
        · exact (hlub.1 z hz).trans hlub'.1
        · simp at hz; subst hz; exact hlub'.2.1
      · intro v hv
        exact hlub'.2.2 (some v) (hlub.2 v fun z hz => hv z (List.mem_append_left _ hz)) (hv y (by simp))
    · right
      constructor
      · rw [unify_some, if_pos hk]
      · have : ∃ ty, (n, ty) ∈ uses := by
          by_contra hc
          have := (h.2 n).1.2 hc
          rw [hg] at this; cases this
        obtain ⟨y', hy'⟩ := this
        exact ⟨y', hy', by rw [(hlub.1 y' hy').kind]; exact hk⟩

/-- Folding uses into a map, whichever argument order Unify gets. -/
theorem tinv_fold (step : TypeMap → Str × RsType → Res TypeMap)
    (hstep : ∀ uses t n y, TInv uses t → GoodType y → step t (n, y) =
      (RsType.unify (t.at_ n) (some y)).map (fun u => GoMap.set t n u))
    (l : List (Str × RsType)) (hl : ∀ x ∈ l, GoodType x.2) (uses : List (Str × RsType)) (t : TypeMap) (h : TInv uses t) :
    (∃ t', l.foldlM step t = .ok t' ∧ TInv (uses ++ l) t') ∨
    (l.foldlM step t = throwErr .unifyDifferentKinds ∧
      ∃ n y y', (n, y) ∈ uses ++ l ∧ (n, y') ∈ uses ++ l ∧ y.kind ≠ y'.kind) := by
  induction l generalizing uses t with
  | nil => exact Or.inl ⟨t, rfl, by simpa using h⟩
  | cons x l ih =>
    obtain ⟨n, y⟩ := x
    rw [List.foldlM_cons, hstep uses t n y h (hl (n, y) (by simp))]
    rcases tinv_step h n y (hl (n, y) (by simp)) with ⟨u, hu, hinv⟩ | ⟨hu, y', hy', hk⟩
    · rw [hu]
      have := ih (fun x hx => hl x (by simp [hx])) _ _ hinv
      simpa [Except.map, bind, Except.bind] using this
    · right
      rw [hu]
      exact ⟨rfl, n, y', y, by simp [hy'], by simp, hk⟩

theorem tinv_no_conflict {uses : List (Str × RsType)} {t : TypeMap} (h : TInv uses t) :
    ¬ ∃ n y y', (n, y) ∈ uses ∧ (n, y') ∈ uses ∧ y.kind ≠ y'.kind := by
  rintro ⟨n, y, y', h1, h2, hk⟩
  cases hg : GoMap.get? t n with
  | none => exact (h.2 n).1.1 hg ⟨y, h1⟩
  | some x =>
    obtain ⟨ty, _, _, hl⟩ := (h.2 n).2 x hg
    exact hk ((hl.1 y h1).kind.trans (hl.1 y' h2).kind.symm)

/-- The uses made by the visited nodes. -/
def usesOf (V : List (Path × Node)) : List (Str × RsType) :=
  V.filterMap (fun pn => pn.2.event.map fun e => (e.channel.name, e.value.type))

theorem typeFold_uses (V : List (Path × Node)) (t : TypeMap) :
    V.foldlM (fun t pn => typeStep t pn.2) t =
      (usesOf V).foldlM (fun (t : TypeMap) ny => (RsType.unify (t.at_ ny.1) (some ny.2)).map (fun u => GoMap.set t ny.1 u)) t := by
  induction V generalizing t with
  | nil => rfl
  | cons pn V ih =>
    rw [List.foldlM_cons]
    unfold usesOf typeStep
    cases he : pn.2.event with
    | none =>
      simp only [List.filterMap_cons, he, Option.map_none]
      exact ih t
    | some e =>
      simp only [List.filterMap_cons, he, Option.map_some, List.foldlM_cons]
      cases hu : RsType.unify (TypeMap.at_ t e.channel.name) (some e.value.type) with
      | error f => rfl
      | ok u => exact ih _

theorem typeFold_spec (V : List (Path × Node)) :
    (∃ t', V.foldlM (fun t pn => typeStep t pn.2) ([] : TypeMap) = .ok t' ∧ TInv (usesOf V) t') ∨
    (V.foldlM (fun t pn => typeStep t pn.2) ([] : TypeMap) = throwErr .unifyDifferentKinds ∧
      ∃ n y y', (n, y) ∈ usesOf V ∧ (n, y') ∈ usesOf V ∧ y.kind ≠ y'.kind) := by
  have hl : ∀ x ∈ usesOf V, GoodType x.2 := by
    intro x hx
    obtain ⟨pn, _, h⟩ := List.mem_filterMap.1 hx
    cases he : pn.2.event with
    | none => rw [he] at h; simp at h
    | some e => rw [he] at h; simp at h; subst h; exact good_valueType _
  have := tinv_fold (fun (t : TypeMap) ny => (RsType.unify (t.at_ ny.1) (some ny.2)).map (fun u => GoMap.set t ny.1 u))
    (fun _ _ _ _ _ _ => rfl) (usesOf V) hl [] [] tinv_nil
  simp only [List.nil_append] at this
  rw [typeFold_uses]
  exact this

theorem mem_usesOf {root : Node} (hwf : WellFormed root) (name : Str) (ty : RsType) :
    (name, ty) ∈ usesOf (visit [] root) ↔ Carries root name ty := by
  unfold usesOf Carries
  rw [List.mem_filterMap]
  constructor
  · rintro ⟨⟨p, n⟩, hpn, h⟩
    rw [mem_visit (failLeaf_of_wellFormed hwf)] at hpn
    obtain ⟨r, hr, hn⟩ := mem_preorder.1 hpn.1
    cases he : n.event with
    | none => rw [he] at h; simp at h
    | some e =>
      rw [he] at h
      simp only [Option.map_some, Option.some.injEq, Prod.mk.injEq] at h
      exact ⟨r, n, e, hn, hpn.2, he, h.1, h.2.symm⟩
  · rintro ⟨p, n, e, hn, ho, he, rfl, rfl⟩
    refine ⟨(p, n), (mem_visit (failLeaf_of_wellFormed hwf)).2 ⟨mem_preorder.2 ⟨p, by simp, hn⟩, ho⟩, ?_⟩
    simp [he]

end Rtcg
