import Verif.Props.Stm

namespace Rtcg

open Spec

/-! ### BuildMany -/

/-- Building one test, whatever the builder. -/
def buildOne (t : Validate.Test) : Res Stm := ((Builder.zero.build t).getD (.error .panic)).map (fun x => x.2.1)

theorem buildMany_eq (s : GoMap Str Validate.Test) (hs : GoMap.WF s) (b : Builder) :
    (b.buildMany s).map (·.2) = s.mapM (fun nt => (buildOne nt.2).map (fun m => (nt.1, m))) := by
  unfold Builder.buildMany
  have key : ∀ (s : GoMap Str Validate.Test) (b : Builder) (acc : GoMap Str Stm), (acc.map (·.1) ++ s.map (·.1)).Nodup →
      (s.foldlM Builder.buildManyStep (b, acc)).map (·.2) =
      (s.mapM (fun nt => (buildOne nt.2).map (fun m => (nt.1, m)))).map (fun l => acc ++ l) := by
    intro s
    induction s with
    | nil => intro b acc _; simp [Except.map, pure, Except.pure]
    | cons nt s ih =>
      intro b acc hd
      rw [List.foldlM_cons, List.mapM_cons]
      have hb : b.build nt.2 = Builder.zero.build nt.2 := rfl
      have h1 : Builder.buildManyStep (b, acc) nt = ((Builder.zero.build nt.2).getD (.error .panic)).map
          (fun x => (x.1, GoMap.set acc nt.1 x.2.1)) := by
        unfold Builder.buildManyStep
        simp only [hb]
        cases (Builder.zero.build nt.2).getD (.error .panic) <;> rfl
      rw [h1]
      have h2 : buildOne nt.2 = ((Builder.zero.build nt.2).getD (.error .panic)).map (fun x => x.2.1) := rfl
      rw [h2]
      cases hr : (Builder.zero.build nt.2).getD (.error .panic) with
      | error e => rfl
      | ok x =>
        obtain ⟨b', m, t'⟩ := x
        have hk : nt.1 ∉ acc.map (·.1) := by
          intro hc
          rw [List.nodup_append] at hd
          exact hd.2.2 _ hc nt.1 (by simp) rfl
        have hset := set_append_new acc nt.1 m hk
        have hd' : ((acc ++ [(nt.1, m)]).map (·.1) ++ s.map (·.1)).Nodup := by
          simpa using hd
        have := ih b' (acc ++ [(nt.1, m)]) hd'
        rw [← hset] at this
        refine Eq.trans this ?_
        rw [hset]
        cases s.mapM (fun nt => (buildOne nt.2).map (fun m => (nt.1, m))) with
        | error e => rfl
        | ok l => simp [Except.map, bind, Except.bind, pure, Except.pure]
  have := key s b [] (by simpa [GoMap.WF] using hs)
  refine this.trans ?_
  cases s.mapM (fun nt => (buildOne nt.2).map (fun m => (nt.1, m))) <;> simp [Except.map]

theorem buildOne_cases {root : Node} {t : Validate.Test} (hv : Validate.full (some root) = some (.ok t)) :
    (∃ m, buildOne t = .ok m ∧ TInv (usesOf (visit [] root)) m.types) ∨
    (buildOne t = .error (.err .unifyDifferentKinds) ∧ ∃ name, Conflict (Carries root name)) := by
  obtain ⟨rfl, hwf, ⟨b', ty, h1, h2, _⟩ | ⟨h1, n, y, y', h2, h3, h4⟩⟩ := build_cases Builder.zero hv
  · left
    refine ⟨machineOf (labelled root) ty, ?_, h2⟩
    unfold buildOne; rw [h1]; rfl
  · right
    refine ⟨by unfold buildOne; rw [h1]; rfl, n, y, y', (mem_usesOf hwf n y).1 h2, (mem_usesOf hwf n y').1 h3, h4⟩

/-! ### unifyTypes -/

theorem unifyTypes_flat (ms : GoMap Str Stm) (t : TypeMap) :
    ms.foldlM (fun (tmap : TypeMap) nt => nt.2.types.foldlM Builder.unifyStep tmap) t =
      (ms.flatMap (fun nt => nt.2.types)).foldlM Builder.unifyStep t := by
  induction ms generalizing t with
  | nil => rfl
  | cons nt ms ih =>
    rw [List.foldlM_cons, List.flatMap_cons, List.foldlM_append]
    cases h : nt.2.types.foldlM Builder.unifyStep t with
    | error e => rfl
    | ok t' => exact ih t'

/-- Folding present types: the swapped Unify. -/
theorem unifyFold_spec (l : List (Str × RsType)) (hl : ∀ x ∈ l, GoodType x.2) :
    (∃ t', (l.map (fun x => (x.1, some x.2))).foldlM Builder.unifyStep ([] : TypeMap) = .ok t' ∧ TInv l t') ∨
    ((l.map (fun x => (x.1, some x.2))).foldlM Builder.unifyStep ([] : TypeMap) = throwErr .unifyDifferentKinds ∧
      ∃ n y y', (n, y) ∈ l ∧ (n, y') ∈ l ∧ y.kind ≠ y'.kind) := by
  have := tinv_fold (fun t ny => Builder.unifyStep t (ny.1, some ny.2))
    (by
      intro uses t n y ht hy
      unfold Builder.unifyStep
      simp only
      rw [unify_comm' (some y) (t.at_ n) (fun _ h => by cases h; exact hy) (tinv_at ht n)]
      cases RsType.unify (t.at_ n) (some y) <;> rfl) l hl [] [] tinv_nil
  have e : ∀ t : TypeMap, (l.map (fun x => (x.1, some x.2))).foldlM Builder.unifyStep t =
      l.foldlM (fun t (ny : Str × RsType) => Builder.unifyStep t (ny.1, some ny.2)) t := by
    intro t; rw [List.foldlM_map]
  rw [e]
  simpa using this

/-- The entries of a map satisfying the invariant, as plain types. -/
theorem tinv_entries {uses : List (Str × RsType)} {t : TypeMap} (h : TInv uses t) :
    ∃ l : List (Str × RsType), t = l.map (fun x => (x.1, some x.2)) ∧ (∀ x ∈ l, GoodType x.2) ∧
      (∀ name ty, (name, ty) ∈ l → LeastUpper (fun y => (name, y) ∈ uses) ty) ∧
      (∀ name y, (name, y) ∈ uses → ∃ ty, (name, ty) ∈ l) := by
  have key : ∀ x ∈ t, ∃ ty, x.2 = some ty ∧ GoodType ty ∧ LeastUpper (fun y => (x.1, y) ∈ uses) ty := by
    rintro ⟨n, x⟩ hx
    exact (h.2 n).2 x (GoMap.get?_of_mem h.1 hx)
  refine ⟨t.map (fun x => (x.1, x.2.getD RsType.empty)), ?_, ?_, ?_, ?_⟩
  · rw [List.map_map]
    conv_lhs => rw [← List.map_id t]
    apply List.map_congr_left
    rintro ⟨n, x⟩ hx
    obtain ⟨ty, e, _⟩ := key (n, x) hx
    simp only at e
    simp [e]
  · intro y hy
    obtain ⟨⟨n, x⟩, hx, rfl⟩ := List.mem_map.1 hy
    obtain ⟨ty, e, hg, _⟩ := key (n, x) hx
    simp only at e
    simp only [e]; exact hg
  · intro name ty hty
    obtain ⟨⟨n, x⟩, hx, he⟩ := List.mem_map.1 hty
    obtain ⟨ty', e, _, hl⟩ := key (n, x) hx
    simp only at e
    simp only [e, Option.getD_some, Prod.mk.injEq] at he
    obtain ⟨rfl, rfl⟩ := he
    exact hl
  · intro name y hy
    cases hg : GoMap.get? t name with
    | none => exact absurd ⟨y, hy⟩ ((h.2 name).1.1 hg)
    | some x =>
      have := GoMap.mem_of_get? hg
      exact ⟨_, List.mem_map.2 ⟨(name, x), this, rfl⟩⟩

end Rtcg
