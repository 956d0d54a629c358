import Verif.Proofs.StmSuite

/-
Theorems about building suites of state machines: C36.
-/

namespace Rtcg

open Spec

theorem many_cases (ts : GoMap Str Validate.Test) (hv : Validated ts) :
    (∃ ms, ts.mapM (fun nt => (buildOne nt.2).map (fun m => (nt.1, m))) = .ok ms ∧
      List.Forall₂ (fun nt nm => nm.1 = nt.1 ∧ buildOne nt.2 = .ok nm.2 ∧ TInv (usesOf (visit [] nt.2.root)) nm.2.types) ts ms) ∨
    (ts.mapM (fun nt => (buildOne nt.2).map (fun m => (nt.1, m))) = .error (.err .unifyDifferentKinds) ∧
      ∃ nt ∈ ts, ∃ name, Conflict (Carries nt.2.root name)) := by
  induction ts with
  | nil => exact Or.inl ⟨[], rfl, .nil⟩
  | cons nt ts ih =>
    rw [List.mapM_cons]
    rcases buildOne_cases (hv nt (by simp)) with ⟨m, hm, hinv⟩ | ⟨hm, hc⟩
    · rcases ih (fun x hx => hv x (by simp [hx])) with ⟨ms, hms, hf⟩ | ⟨hms, nt', h1, h2⟩
      · left
        refine ⟨(nt.1, m) :: ms, ?_, .cons ⟨rfl, hm, hinv⟩ hf⟩
        rw [hm, hms]; rfl
      · right
        refine ⟨by rw [hm, hms]; rfl, nt', by simp [h1], h2⟩
    · right
      exact ⟨by rw [hm]; rfl, nt, by simp, hc⟩

theorem suite_entries {ts : GoMap Str Validate.Test} (hv : Validated ts) {ms : GoMap Str Stm}
    (h : List.Forall₂ (fun nt nm => nm.1 = nt.1 ∧ buildOne nt.2 = .ok nm.2 ∧ TInv (usesOf (visit [] nt.2.root)) nm.2.types) ts ms) :
    ∃ L : List (Str × RsType), ms.flatMap (fun nm => nm.2.types) = L.map (fun x => (x.1, some x.2)) ∧ (∀ x ∈ L, GoodType x.2) ∧
      (∀ name ty, (name, ty) ∈ L → ∀ u, (∀ y, SuiteCarries ts name y → SubType y u) → SubType ty u) ∧
      (∀ name y, SuiteCarries ts name y → ∃ ty, (name, ty) ∈ L ∧ SubType y ty) ∧
      (∀ name ty, (name, ty) ∈ L → ∃ y, SuiteCarries ts name y ∧ y.kind = ty.kind) := by
  induction h with
  | nil => exact ⟨[], rfl, by simp, by simp, by rintro _ _ ⟨_, h, _⟩; simp at h, by simp⟩
  | @cons nt nm ts ms hh ht ih =>
    obtain ⟨L, e, g, h1, h2, h3⟩ := ih (fun x hx => hv x (by simp [hx]))
    obtain ⟨_, hwf⟩ := (full_ok_iff nt.2.root nt.2).1 (hv nt (by simp))
    obtain ⟨l, e', g', k1, k2⟩ := tinv_entries hh.2.2
    have up : ∀ name y, SuiteCarries ts name y → SuiteCarries (nt :: ts) name y := by
      rintro name y ⟨x, hx, hc⟩; exact ⟨x, by simp [hx], hc⟩
    have here : ∀ name y, Carries nt.2.root name y → SuiteCarries (nt :: ts) name y := by
      intro name y hc; exact ⟨nt, by simp, hc⟩
    refine ⟨l ++ L, ?_, ?_, ?_, ?_, ?_⟩
    · rw [List.flatMap_cons, e, e', List.map_append]
    · intro x hx
      rcases List.mem_append.1 hx with hx | hx
      · exact g' x hx
      · exact g x hx
    · intro name ty hty u hu
      rcases List.mem_append.1 hty with hty | hty
      · exact (k1 name ty hty).2 u fun y hy => hu y (here name y ((mem_usesOf hwf name y).1 hy))
      · exact h1 name ty hty u fun y hy => hu y (up name y hy)
    · rintro name y ⟨x, hx, hc⟩
      rcases List.mem_cons.1 hx with rfl | hx
      · have hu := (mem_usesOf hwf name y).2 hc
        obtain ⟨ty, hty⟩ := k2 name y hu
        exact ⟨ty, by simp [hty], (k1 name ty hty).1 y hu⟩
      · obtain ⟨ty, hty, hs⟩ := h2 name y ⟨x, hx, hc⟩
        exact ⟨ty, by simp [hty], hs⟩
    · intro name ty hty
      rcases List.mem_append.1 hty with hty | hty
      · have hne : ∃ y, (name, y) ∈ usesOf (visit [] nt.2.root) := by
          by_contra hc
          have hnone := (hh.2.2.2 name).1.2 hc
          have hm : (name, some ty) ∈ nm.2.types := by
            rw [e']; exact List.mem_map.2 ⟨(name, ty), hty, rfl⟩
          rw [GoMap.get?_of_mem hh.2.2.1 hm] at hnone
          cases hnone
        obtain ⟨y, hy⟩ := hne
        exact ⟨y, here name y ((mem_usesOf hwf name y).1 hy), ((k1 name ty hty).1 y hy).kind⟩
      · obtain ⟨y, hy, hk⟩ := h3 name ty hty
        exact ⟨y, up name y hy, hk⟩

theorem entries_typesAre {ts : GoMap Str Validate.Test} {L : List (Str × RsType)}
    (h1 : ∀ name ty, (name, ty) ∈ L → ∀ u, (∀ y, SuiteCarries ts name y → SubType y u) → SubType ty u)
    (h2 : ∀ name y, SuiteCarries ts name y → ∃ ty, (name, ty) ∈ L ∧ SubType y ty)
    (h3 : ∀ name ty, (name, ty) ∈ L → ∃ y, SuiteCarries ts name y ∧ y.kind = ty.kind)
    {t : TypeMap} (h : TInv L t) : TypesAre t (SuiteCarries ts) := by
  intro name
  constructor
  · rw [(h.2 name).1]
    constructor
    · rintro hno ⟨y, hy⟩
      obtain ⟨ty, hty, _⟩ := h2 name y hy
      exact hno ⟨ty, hty⟩
    · rintro hno ⟨ty, hty⟩
      obtain ⟨y, hy, _⟩ := h3 name ty hty
      exact hno ⟨y, hy⟩
  · intro x hx
    obtain ⟨ty, e, _, hl⟩ := (h.2 name).2 x hx
    refine ⟨ty, e, ?_, ?_⟩
    · intro y hy
      obtain ⟨ty', hty', hs⟩ := h2 name y hy
      exact hs.trans (hl.1 ty' hty')
    · intro u hu
      exact hl.2 u fun z hz => h1 name z hz u hu

theorem suite_cases (b : Builder) (ts : GoMap Str Validate.Test) (hwf : GoMap.WF ts) (hv : Validated ts) :
    (∃ b' r L, b.buildSuite ts = .ok (b', r) ∧
      List.Forall₂ (fun nt nm => nm.1 = nt.1 ∧ buildOne nt.2 = .ok nm.2) ts r.tests ∧
      r.tests.flatMap (fun nm => nm.2.types) = L.map (fun x => (x.1, some x.2)) ∧ (∀ x ∈ L, GoodType x.2) ∧
      TInv L r.types ∧ TypesAre r.types (SuiteCarries ts)) ∨
    (b.buildSuite ts = .error (.err .unifyDifferentKinds) ∧ ∃ name, Conflict (SuiteCarries ts name)) := by
  have hmany := buildMany_eq ts hwf b
  unfold Builder.buildSuite
  rcases many_cases ts hv with ⟨ms, hms, hf⟩ | ⟨hms, nt, hnt, name, x, y, hx, hy, hk⟩
  · rw [hms] at hmany
    cases hb : b.buildMany ts with
    | error e => rw [hb] at hmany; cases hmany
    | ok bm =>
      rw [hb] at hmany
      obtain ⟨b', ms'⟩ := bm
      simp only [Except.map, Except.ok.injEq] at hmany
      subst hmany
      obtain ⟨L, e, g, h1, h2, h3⟩ := suite_entries hv hf
      simp only
      have hu : Builder.unifyTypes ms' = (L.map (fun x => (x.1, some x.2))).foldlM Builder.unifyStep ([] : TypeMap) := by
        unfold Builder.unifyTypes; rw [unifyTypes_flat, e]
      rw [hu]
      rcases unifyFold_spec L g with ⟨t', ht, hinv⟩ | ⟨ht, n, y, y', hy, hy', hk⟩
      · left
        rw [ht]
        refine ⟨b', ⟨t', ms'⟩, L, rfl, hf.imp fun _ _ h => ⟨h.1, h.2.1⟩, e, g, hinv, entries_typesAre h1 h2 h3 hinv⟩
      · right
        rw [ht]
        refine ⟨rfl, n, ?_⟩
        obtain ⟨z, hz, hzk⟩ := h3 n y hy
        obtain ⟨z', hz', hzk'⟩ := h3 n y' hy'
        exact ⟨z, z', hz, hz', by rw [hzk, hzk']; exact hk⟩
  · right
    rw [hms] at hmany
    cases hb : b.buildMany ts with
    | ok bm => rw [hb] at hmany; cases hmany
    | error e =>
      rw [hb] at hmany
      simp only [Except.map, Except.error.injEq] at hmany
      exact ⟨by rw [hmany], name, x, y, ⟨nt, hnt, hx⟩, ⟨nt, hnt, hy⟩, hk⟩

theorem typesAre_no_conflict {t : TypeMap} {S : Str → RsType → Prop} (h : TypesAre t S) : ¬ ∃ name, Conflict (S name) := by
  rintro ⟨name, x, y, hx, hy, hk⟩
  cases hg : GoMap.get? t name with
  | none => exact (h name).1.1 hg ⟨x, hx⟩
  | some z =>
    obtain ⟨ty, _, hl⟩ := (h name).2 z hg
    exact hk ((hl.1 x hx).kind.trans (hl.1 y hy).kind.symm)

theorem typesAre_equiv {t t' : TypeMap} {S S' : Str → RsType → Prop} (hS : ∀ n x, S n x ↔ S' n x) (h : TypesAre t S)
    (h' : TypesAre t' S') : GoMap.Equiv t t' := by
  have : S = S' := by funext n x; exact propext (hS n x)
  subst this
  intro name
  cases hg : GoMap.get? t name with
  | none => exact ((h' name).1.2 ((h name).1.1 hg)).symm
  | some x =>
    cases hg' : GoMap.get? t' name with
    | none =>
      have := (h name).1.2 ((h' name).1.1 hg')
      rw [hg] at this; cases this
    | some x' =>
      obtain ⟨ty, rfl, hl⟩ := (h name).2 x hg
      obtain ⟨ty', rfl, hl'⟩ := (h' name).2 x' hg'
      rw [hl.unique hl']

/-! ### C36 -/

/-- BuildSuite succeeds exactly when no channel name carries values of two type kinds anywhere in the suite; otherwise it
returns that error (it never panics). -/
theorem C36_success (b : Builder) (ts : GoMap Str Validate.Test) (hwf : GoMap.WF ts) (hv : Validated ts) :
    ((∃ b' r, b.buildSuite ts = .ok (b', r)) ↔ ¬ ∃ name, Conflict (SuiteCarries ts name)) ∧
    (b.buildSuite ts = .error (.err .unifyDifferentKinds) ↔ ∃ name, Conflict (SuiteCarries ts name)) := by
  rcases suite_cases b ts hwf hv with ⟨b', r, L, h, _, _, _, _, ht⟩ | ⟨h, hc⟩
  · have hno := typesAre_no_conflict ht
    rw [h]
    exact ⟨⟨fun _ => hno, fun _ => ⟨b', r, rfl⟩⟩, ⟨by simp, fun hc => absurd hc hno⟩⟩
  · rw [h]
    exact ⟨⟨by simp, fun hno => absurd hc hno⟩, ⟨fun _ => hc, fun _ => rfl⟩⟩

/-- On success the suite has one machine per test, the one Build gives for that test on its own, and the suite types are
the least upper bounds over all tests. -/
theorem C36_result (b b' : Builder) (ts : GoMap Str Validate.Test) (hwf : GoMap.WF ts) (hv : Validated ts) (r : StmSuite)
    (h : b.buildSuite ts = .ok (b', r)) :
    r.tests.map (·.1) = ts.map (·.1) ∧
    (∀ name t m, (name, t) ∈ ts → (r.tests.get? name = some m ↔ ∃ b₁ t', Builder.zero.build t = some (.ok (b₁, m, t')))) ∧
    TypesAre r.types (SuiteCarries ts) := by
  rcases suite_cases b ts hwf hv with ⟨b'', r', L, h', hf, _, _, _, ht⟩ | ⟨h', _⟩
  · rw [h] at h'
    simp only [Except.ok.injEq, Prod.mk.injEq] at h'
    obtain ⟨_, rfl⟩ := h'
    have hkeys : r.tests.map (·.1) = ts.map (·.1) := by
      clear ht h hv hwf
      generalize r.tests = rt at hf ⊢
      induction hf with
      | nil => rfl
      | cons h _ ih => rw [List.map_cons, List.map_cons, h.1, ih]
    refine ⟨hkeys, ?_, ht⟩
    intro name t m hmem
    have hwf' : GoMap.WF r.tests := by unfold GoMap.WF; rw [hkeys]; exact hwf
    have hmem' : ∃ m', (name, m') ∈ r.tests ∧ buildOne t = .ok m' := by
      clear ht h hv hwf hwf' hkeys
      generalize r.tests = rt at hf
      induction hf with
      | nil => simp at hmem
      | @cons nt nm _ _ hh _ ih =>
        rcases List.mem_cons.1 hmem with rfl | hmem
        · obtain ⟨n, m'⟩ := nm
          simp only at hh
          exact ⟨m', by rw [hh.1]; simp, hh.2⟩
        · obtain ⟨m', h1, h2⟩ := ih hmem
          exact ⟨m', by simp [h1], h2⟩
    obtain ⟨m', h1, h2⟩ := hmem'
    rw [GoMap.get?_of_mem hwf' h1]
    have h3 : ∃ b₁ t', Builder.zero.build t = some (.ok (b₁, m', t')) := by
      unfold buildOne at h2
      cases hz : Builder.zero.build t with
      | none => rw [hz] at h2; cases h2
      | some z =>
        cases z with
        | error e => rw [hz] at h2; cases h2
        | ok x =>
          rw [hz] at h2
          simp only [Option.getD_some, Except.map, Except.ok.injEq] at h2
          exact ⟨x.1, x.2.2, by rw [← h2]⟩
    obtain ⟨b₁, t', h3⟩ := h3
    constructor
    · intro e; cases e; exact ⟨b₁, t', h3⟩
    · rintro ⟨b₂, t'', e⟩
      rw [h3] at e
      simp only [Option.some.injEq, Except.ok.injEq, Prod.mk.injEq] at e
      rw [e.2.1]
  · rw [h] at h'; cases h'

/-- The order in which the suite map is visited (and the builder used) does not matter: both succeed or both fail, with the
same machines and the same types. -/
theorem C36_order (b₁ b₂ : Builder) (ts ts' : GoMap Str Validate.Test) (hwf : GoMap.WF ts) (hv : Validated ts)
    (hp : ts.Perm ts') :
    (∀ b' r, b₁.buildSuite ts = .ok (b', r) → ∃ b'' r', b₂.buildSuite ts' = .ok (b'', r') ∧
      r.tests.Perm r'.tests ∧ GoMap.Equiv r.types r'.types) ∧
    (∀ e, b₁.buildSuite ts = .error e → b₂.buildSuite ts' = .error e) := by
  have hwf' : GoMap.WF ts' := (hp.map _).nodup_iff.1 hwf
  have hv' : Validated ts' := fun nt hnt => hv nt (hp.mem_iff.2 hnt)
  have hS : ∀ n x, SuiteCarries ts n x ↔ SuiteCarries ts' n x := by
    intro n x; unfold SuiteCarries; simp only [hp.mem_iff]
  have hc : (∃ name, Conflict (SuiteCarries ts name)) ↔ ∃ name, Conflict (SuiteCarries ts' name) := by
    unfold Conflict; simp only [hS]
  constructor
  · intro b' r h
    have hno := (C36_success b₁ ts hwf hv).1.1 ⟨b', r, h⟩
    obtain ⟨b'', r', h'⟩ := (C36_success b₂ ts' hwf' hv').1.2 (fun h => hno (hc.2 h))
    obtain ⟨k1, m1, t1⟩ := C36_result b₁ b' ts hwf hv r h
    obtain ⟨k2, m2, t2⟩ := C36_result b₂ b'' ts' hwf' hv' r' h'
    refine ⟨b'', r', h', ?_, typesAre_equiv hS t1 t2⟩
    have w1 : GoMap.WF r.tests := by unfold GoMap.WF; rw [k1]; exact hwf
    have w2 : GoMap.WF r'.tests := by unfold GoMap.WF; rw [k2]; exact hwf'
    apply GoMap.perm_of_equiv w1 w2
    intro name
    cases hg : GoMap.get? r.tests name with
    | none =>
      have : name ∉ GoMap.keys r'.tests := by
        have := GoMap.get?_eq_none_iff.1 hg
        unfold GoMap.keys at this ⊢
        rw [k1] at this; rw [k2]
        rwa [← (hp.map (·.1)).mem_iff]
      exact (GoMap.get?_eq_none_iff.2 this).symm
    | some m =>
      have hk : name ∈ ts.map (·.1) := by
        rw [← k1]; exact List.mem_map_of_mem (f := (·.1)) (GoMap.mem_of_get? hg)
      obtain ⟨⟨n, t⟩, hm, rfl⟩ := List.mem_map.1 hk
      have := (m1 n t m hm).1 hg
      exact ((m2 n t m (hp.mem_iff.1 hm)).2 this).symm
  · intro e h
    rcases suite_cases b₁ ts hwf hv with ⟨b', r, L, h', _⟩ | ⟨h', hcon⟩
    · rw [h] at h'; cases h'
    · rw [h] at h'; cases h'
      exact (C36_success b₂ ts' hwf' hv').2.2 (hc.1 hcon)

/-- Nor do the orders in which unifyTypes visits the machines' type maps: visiting all their entries in any order gives the
same suite types. -/
theorem C36_inner_order (b b' : Builder) (ts : GoMap Str Validate.Test) (hwf : GoMap.WF ts) (hv : Validated ts) (r : StmSuite)
    (h : b.buildSuite ts = .ok (b', r)) (entries : List (Str × Option RsType))
    (hp : (r.tests.flatMap (fun nm => nm.2.types)).Perm entries) :
    ∃ types, entries.foldlM Builder.unifyStep ([] : TypeMap) = .ok types ∧ GoMap.Equiv types r.types := by
  rcases suite_cases b ts hwf hv with ⟨b'', r', L, h', _, hL, hg, hinv, _⟩ | ⟨h', _⟩
  · rw [h] at h'
    simp only [Except.ok.injEq, Prod.mk.injEq] at h'
    obtain ⟨_, rfl⟩ := h'
    rw [hL] at hp
    have he : ∃ L', entries = L'.map (fun x : Str × RsType => (x.1, some x.2)) ∧ L.Perm L' := by
      refine ⟨entries.map (fun x => (x.1, x.2.getD RsType.empty)), ?_, ?_⟩
      · rw [List.map_map]
        conv_lhs => rw [← List.map_id entries]
        apply List.map_congr_left
        intro x hx
        obtain ⟨y, _, rfl⟩ := List.mem_map.1 (hp.mem_iff.2 hx)
        rfl
      · have := hp.map (fun x => (x.1, x.2.getD RsType.empty))
        rw [List.map_map] at this
        have e : L.map ((fun x : Str × Option RsType => (x.1, x.2.getD RsType.empty)) ∘ fun x => (x.1, some x.2)) = L := by
          conv_rhs => rw [← List.map_id L]
          rfl
        rw [e] at this
        exact this
    obtain ⟨L', rfl, hperm⟩ := he
    have hS : ∀ n x, (n, x) ∈ L' ↔ (n, x) ∈ L := fun n x => hperm.mem_iff.symm
    have toAre : ∀ {L : List (Str × RsType)} {t : TypeMap}, TInv L t → TypesAre t (fun n x => (n, x) ∈ L) := by
      intro L t ht name
      refine ⟨(ht.2 name).1, fun x hx => ?_⟩
      obtain ⟨ty, e, _, hl⟩ := (ht.2 name).2 x hx
      exact ⟨ty, e, hl⟩
    rcases unifyFold_spec L' (fun x hx => hg x (hperm.mem_iff.2 hx)) with ⟨t', ht, hinv'⟩ | ⟨_, n, y, y', hy, hy', hk⟩
    · exact ⟨t', ht, typesAre_equiv hS (toAre hinv') (toAre hinv)⟩
    · exact absurd ⟨n, y, y', (hS _ _).1 hy, (hS _ _).1 hy', hk⟩ (tinv_no_conflict hinv)
  · rw [h] at h'; cases h'

/-- Validated suites are what FullSuite returns. -/
theorem C36_validated (s : Validate.Suite) (hs : GoMap.WF s) (ts : GoMap Str Validate.Test)
    (h : Validate.fullSuite s = .ok ts) : GoMap.WF ts ∧ Validated ts := by
  unfold Validate.fullSuite at h
  rw [tryOver_ok_iff _ _ hs] at h
  refine ⟨by unfold GoMap.WF; rw [h.1]; exact hs, ?_⟩
  intro nt hnt
  have : Except.ok nt.2 ∈ ts.map (fun kv => (Except.ok kv.2 : Res Validate.Test)) := List.mem_map.2 ⟨nt, hnt, rfl⟩
  rw [← h.2] at this
  obtain ⟨kv, _, he⟩ := List.mem_map.1 this
  obtain ⟨k, v⟩ := kv
  cases v with
  | none => simp [Validate.full] at he
  | some r =>
    have h2 : Validate.full (some r) = some (.ok nt.2) := by
      cases hf : Validate.full (some r) with
      | none => simp only [hf] at he; cases he
      | some x => simp only [hf, Option.getD_some] at he; rw [he]
    have := (full_ok_iff r nt.2).1 h2
    rw [this.1] at h2 ⊢
    exact h2

example : ∃ ts, GoMap.WF ts ∧ Validated ts ∧ ts.length = 2 ∧ ∃ r, Builder.zero.buildSuite ts = .ok r :=
  ⟨[(c!"x", ⟨exTree⟩), (c!"y", ⟨Forbidden.expand ⟨[], [], ⟨⟨c!"a", .in_⟩, .int 7⟩⟩ c!"y"⟩)], by decide,
    by
      intro nt hnt
      have : WellFormed nt.2.root := by
        simp only [List.mem_cons, List.not_mem_nil, or_false] at hnt
        rcases hnt with rfl | rfl
        · exact expand_wellFormed _ _
        · exact expand_wellFormed _ _
      exact (full_ok_iff _ _).2 ⟨rfl, this⟩, rfl, _, by rfl⟩

end Rtcg
