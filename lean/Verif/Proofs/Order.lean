import Verif.Model.Order
import Verif.Spec.Order
import Verif.Props.Json
import Mathlib.Data.List.Perm.Basic

namespace Rtcg.Order

open Spec Json

/-! ### sorting -/

theorem mem_eq {fs : List (Str × Json)} (hf : GoMap.WF fs) {a b : Str × Json} (ha : a ∈ fs) (hb : b ∈ fs) (h : a.1 = b.1) : a = b := by
  obtain ⟨k, x⟩ := a
  obtain ⟨l, y⟩ := b
  simp only at h
  subst h
  have h1 := GoMap.get?_of_mem hf ha
  have h2 := GoMap.get?_of_mem hf hb
  rw [h1] at h2
  cases h2
  rfl

theorem sort_pairwise (fs : List (Str × Json)) : (sortFields fs).Pairwise (fun a b => a.1 ≤ b.1) := by
  have : Std.Total (fun a b : Str × Json => a.1 ≤ b.1) := ⟨fun a b => List.le_total a.1 b.1⟩
  have : IsTrans (Str × Json) (fun a b => a.1 ≤ b.1) := ⟨fun a b c h1 h2 => List.le_trans h1 h2⟩
  exact List.pairwise_insertionSort _ _

/-- The order of the entries does not matter to what is written of a map. -/
theorem sort_perm {fs fs' : List (Str × Json)} (hf : GoMap.WF fs) (hp : fs.Perm fs') : sortFields fs = sortFields fs' := by
  have h : (sortFields fs).Perm (sortFields fs') := (sortFields_perm fs).trans (hp.trans (sortFields_perm fs').symm)
  refine List.Perm.eq_of_pairwise (le := fun a b => a.1 ≤ b.1) ?_ (sort_pairwise fs) (sort_pairwise fs') h
  intro a b ha hb h1 h2
  exact mem_eq hf ((sortFields_perm fs).mem_iff.1 ha) ((sortFields_perm fs).mem_iff.1 (h.mem_iff.2 hb)) (List.le_antisymm h1 h2)

theorem insert_rel {R : Json → Json → Prop} {a b : Str × Json} {l l' : List (Str × Json)} (h : a.1 = b.1 ∧ R a.2 b.2)
    (hl : List.Forall₂ (fun x y => x.1 = y.1 ∧ R x.2 y.2) l l') :
    List.Forall₂ (fun x y => x.1 = y.1 ∧ R x.2 y.2) (l.orderedInsert (fun a b => a.1 ≤ b.1) a) (l'.orderedInsert (fun a b => a.1 ≤ b.1) b) := by
  induction hl with
  | nil => exact .cons h .nil
  | @cons x y l l' hxy hl ih =>
    simp only [List.orderedInsert, h.1, hxy.1]
    split
    · exact .cons h (.cons hxy hl)
    · exact .cons hxy ih

theorem sort_rel {R : Json → Json → Prop} {l l' : List (Str × Json)} (hl : List.Forall₂ (fun x y => x.1 = y.1 ∧ R x.2 y.2) l l') :
    List.Forall₂ (fun x y => x.1 = y.1 ∧ R x.2 y.2) (sortFields l) (sortFields l') := by
  induction hl with
  | nil => exact .nil
  | cons h _ ih => exact insert_rel h ih

/-! ### writing maps -/

theorem MapTo.symm {α : Type} {P : α → α → Prop} (hP : ∀ a b, P a b → P b a) {m m' : GoMap Str α} (h : MapTo P m m') : MapTo P m' m := by
  obtain ⟨l, hp, hf⟩ := h
  have hf' : List.Forall₂ (fun (x y : Str × α) => x.1 = y.1 ∧ P x.2 y.2) m' l :=
    hf.flip.imp fun _ _ h => ⟨h.1.symm, hP _ _ h.2⟩
  obtain ⟨l', h1, h2⟩ := (congrFun (congrFun (List.forall₂_comp_perm_eq_perm_comp_forall₂ (r := fun (x y : Str × α) => x.1 = y.1 ∧ P x.2 y.2)) m') m).mp
    ⟨l, hf', hp.symm⟩
  exact ⟨l', h1, h2⟩

theorem MapTo.refl {α : Type} {P : α → α → Prop} (hP : ∀ a, P a a) (m : GoMap Str α) : MapTo P m m :=
  ⟨m, List.Perm.refl _, List.forall₂_same.2 fun x _ => ⟨rfl, hP _⟩⟩

theorem MapTo.of_perm {α : Type} {P : α → α → Prop} (hP : ∀ a, P a a) {m m' : GoMap Str α} (h : List.Perm m m') : MapTo P m m' :=
  ⟨m', h, List.forall₂_same.2 fun x _ => ⟨rfl, hP _⟩⟩

theorem MapTo.wf {α : Type} {P : α → α → Prop} {m m' : GoMap Str α} (h : MapTo P m m') (hm : GoMap.WF m) : GoMap.WF m' := by
  obtain ⟨l, hp, hf⟩ := h
  unfold GoMap.WF
  rw [← forall₂_keys hf]
  exact (hp.map _).nodup_iff.1 hm

theorem entries_perm {α : Type} {enc : α → Res Json} {m m' : GoMap Str α} (hp : m.Perm m') {fs : List (Str × Json)}
    (h : encodeEntries enc m = .ok fs) : ∃ fs', encodeEntries enc m' = .ok fs' ∧ fs.Perm fs' := by
  rw [encodeEntries_ok_iff] at h
  obtain ⟨fs', h1, h2⟩ := (congrFun (congrFun (List.forall₂_comp_perm_eq_perm_comp_forall₂
    (r := fun (y : Str × Json) (x : Str × α) => x.1 = y.1 ∧ enc x.2 = .ok y.2)) fs) m').mp ⟨m, h.flip, hp⟩
  exact ⟨fs', encodeEntries_ok_iff.2 h2.flip, h1⟩

theorem encodeMap_to {α : Type} {enc : α → Res Json} {P : α → α → Prop} {R : Json → Json → Prop} {m m' : GoMap Str α} (hm : GoMap.WF m)
    (ht : MapTo P m m') (henc : ∀ x ∈ m, ∀ b j, P x.2 b → enc x.2 = .ok j → ∃ j', enc b = .ok j' ∧ R j j') {j : Json}
    (h : encodeMap enc m = .ok j) : ∃ fs fs', j = .obj fs ∧ encodeMap enc m' = .ok (.obj fs') ∧
      List.Forall₂ (fun x y => x.1 = y.1 ∧ R x.2 y.2) fs fs' := by
  obtain ⟨l, hp, hf⟩ := ht
  unfold encodeMap at h
  cases he : encodeEntries enc m with
  | error f => rw [he] at h; cases h
  | ok fs =>
    rw [he] at h
    simp only [Except.map, Except.ok.injEq] at h
    obtain ⟨fl, h1, h2⟩ := entries_perm hp he
    have hfs : GoMap.WF fs := by
      have := forall₂_keys (R := fun a j => enc a = .ok j) (encodeEntries_ok_iff.1 he)
      unfold GoMap.WF; rw [← this]; exact hm
    have h3 : ∃ fs', encodeEntries enc m' = .ok fs' ∧ List.Forall₂ (fun x y => x.1 = y.1 ∧ R x.2 y.2) fl fs' := by
      have hall : ∀ x ∈ l, ∀ b j, P x.2 b → enc x.2 = .ok j → ∃ j', enc b = .ok j' ∧ R j j' := fun x hx => henc x (hp.mem_iff.2 hx)
      clear he hp h2 hfs h henc
      induction hf generalizing fl with
      | nil =>
        cases h1
        exact ⟨[], rfl, .nil⟩
      | @cons x y l m' hxy hf ih =>
        rw [encodeEntries_ok_iff] at h1
        cases h1 with
        | @cons _ z _ fl hz h1 =>
          obtain ⟨fs', e, hr⟩ := ih fl (encodeEntries_ok_iff.2 h1) fun x hx => hall x (List.mem_cons_of_mem _ hx)
          obtain ⟨j', e', hr'⟩ := hall x (by simp) y.2 z.2 hxy.2 hz.2
          refine ⟨(y.1, j') :: fs', ?_, .cons ⟨by rw [← hz.1, hxy.1], hr'⟩ hr⟩
          obtain ⟨k, b⟩ := y
          simp only [encodeEntries]
          simp only at e'
          rw [e', e]
    obtain ⟨fs', e, hr⟩ := h3
    refine ⟨sortFields fs, sortFields fs', h.symm, by unfold encodeMap; rw [e]; rfl, ?_⟩
    rw [sort_perm hfs h2]
    exact sort_rel hr

/-- A map of simple values: what is written is the same. -/
theorem encodeMap_perm {α : Type} {enc : α → Res Json} {m m' : GoMap Str α} (hm : GoMap.WF m) (hp : m.Perm m') {j : Json}
    (h : encodeMap enc m = .ok j) : encodeMap enc m' = .ok j := by
  obtain ⟨fs, fs', rfl, e, hr⟩ := encodeMap_to (P := Eq) (R := Eq) hm (MapTo.of_perm (fun _ => rfl) hp)
    (fun x _ b j hb he => ⟨j, by rw [← hb]; exact he, rfl⟩) h
  rw [e]
  congr 2
  clear e h
  induction hr with
  | nil => rfl
  | @cons x y _ _ h _ ih => rw [ih, Prod.ext h.1 h.2]

/-! ### writing machines -/

theorem encodeElems_rel {α : Type} {enc : α → Res Json} {P : α → α → Prop} {l l' : List α} (hl : List.Forall₂ P l l')
    (henc : ∀ x ∈ l, ∀ y j, P x y → enc x = .ok j → enc y = .ok j) {js : List Json} (h : encodeElems enc l = .ok js) :
    encodeElems enc l' = .ok js := by
  induction hl generalizing js with
  | nil => exact h
  | @cons x y l l' hxy hl ih =>
    simp only [encodeElems] at h ⊢
    cases hx : enc x with
    | error f => rw [hx] at h; cases h
    | ok j =>
      rw [hx] at h
      cases hr : encodeElems enc l with
      | error f => rw [hr] at h; cases h
      | ok r =>
        rw [hr] at h
        rw [henc x (by simp) y j hxy hx, ih (fun x hx => henc x (List.mem_cons_of_mem _ hx)) hr]
        exact h

theorem encodeState_to {s s' : State} (hv : GoMap.WF s.verdict) (h : StateTo s s') {j : Json} (hj : encodeState s = .ok j) :
    encodeState s' = .ok j := by
  obtain ⟨h1, h2, h3⟩ := h
  unfold encodeState at hj ⊢
  rw [h2]
  cases ht : encodeElems encodeTSet s.transitionSets with
  | error f => rw [ht] at hj; cases hj
  | ok ts =>
    rw [ht] at hj
    simp only at hj ⊢
    cases hw : encodeVerdict s.verdict with
    | error f => rw [hw] at hj; cases hj
    | ok v =>
      rw [hw] at hj
      have : encodeVerdict s'.verdict = .ok v := encodeMap_perm hv h3 hw
      rw [this, h1]
      exact hj

theorem rearranged_set {s s' : GoSet Str} (h : List.Perm s s') : Rearranged (encodeSet s) (encodeSet s') := by
  refine ⟨_, _, rfl, rfl, ?_⟩
  unfold GoSet.values
  exact ((h.filter _).map _).map _

/-- `R` holds for the sets of tests. -/
theorem encodeStm_to {R : Json → Json → Prop} {m m' : Stm} (hm : StmMaps m) (h : StmTo m m')
    (hR : ∀ s, List.Perm m.tests s → R (encodeSet m.tests) (encodeSet s)) {j : Json} (hj : encodeStm m = .ok j) :
    ∃ j', encodeStm m' = .ok j' ∧ SameBut R [.key c!"tests"] j j' := by
  obtain ⟨h1, h2, h3⟩ := h
  obtain ⟨w1, w2, _⟩ := hm
  unfold encodeStm at hj ⊢
  cases hs : encodeElems encodeState m.states with
  | error f => rw [hs] at hj; cases hj
  | ok ss =>
    rw [hs] at hj
    simp only at hj
    rw [encodeElems_rel h1 (fun x hx y j hxy hj => encodeState_to (w1 x hx) hxy hj) hs]
    cases ht : encodeTypes m.types with
    | error f => rw [ht] at hj; cases hj
    | ok ty =>
      rw [ht] at hj
      simp only [Except.ok.injEq] at hj
      have : encodeTypes m'.types = .ok ty := encodeMap_perm w2 h2 ht
      rw [this]
      subst hj
      refine ⟨_, rfl, _, _, rfl, rfl, .cons ⟨rfl, .inr ⟨by simp only [Step.into]; decide, rfl⟩⟩
        (.cons ⟨rfl, .inr ⟨by simp only [Step.into]; decide, rfl⟩⟩ (.cons ⟨rfl, .inl ⟨rfl, hR _ h3⟩⟩ .nil))⟩

theorem StmTo.symm {m m' : Stm} (h : StmTo m m') : StmTo m' m :=
  ⟨h.1.flip.imp fun _ _ h => ⟨h.1.symm, h.2.1.symm, h.2.2.symm⟩, h.2.1.symm, h.2.2.symm⟩

theorem StmTo.refl (m : Stm) : StmTo m m :=
  ⟨List.forall₂_same.2 fun _ _ => ⟨rfl, rfl, List.Perm.refl _⟩, List.Perm.refl _, List.Perm.refl _⟩

theorem StmTo.maps {m m' : Stm} (h : StmTo m m') (hm : StmMaps m) : StmMaps m' := by
  obtain ⟨h1, h2, h3⟩ := h
  obtain ⟨w1, w2, w3⟩ := hm
  refine ⟨?_, (h2.map _).nodup_iff.1 w2, ?_⟩
  · clear h2 h3 w2 w3
    generalize m.states = l at h1 w1
    generalize m'.states = l' at h1
    induction h1 with
    | nil => simp
    | cons h _ ih =>
      intro s hs
      rcases List.mem_cons.1 hs with rfl | hs
      · exact (h.2.2.map _).nodup_iff.1 (w1 _ (by simp))
      · exact ih (fun s hs => w1 s (by simp [hs])) s hs
  · exact (h3.map _).nodup_iff.1 w3

theorem StateTo.trans {a b c : State} (h : StateTo a b) (h' : StateTo b c) : StateTo a c :=
  ⟨h'.1.trans h.1, h'.2.1.trans h.2.1, h.2.2.trans h'.2.2⟩

theorem forall₂_trans {α : Type} {P : α → α → Prop} (hP : ∀ a b c, P a b → P b c → P a c) {l₁ l₂ l₃ : List α} (h : List.Forall₂ P l₁ l₂)
    (h' : List.Forall₂ P l₂ l₃) : List.Forall₂ P l₁ l₃ := by
  induction h generalizing l₃ with
  | nil => exact h'
  | cons h _ ih =>
    cases h' with
    | cons h1 h2 => exact .cons (hP _ _ _ h h1) (ih h2)

theorem StmTo.trans {a b c : Stm} (h : StmTo a b) (h' : StmTo b c) : StmTo a c :=
  ⟨forall₂_trans (P := StateTo) (fun _ _ _ h h' => StateTo.trans h h') h.1 h'.1, h.2.1.trans h'.2.1, h.2.2.trans h'.2.2⟩

theorem MapTo.trans {α : Type} {P : α → α → Prop} (hP : ∀ a b c, P a b → P b c → P a c) {m₁ m₂ m₃ : GoMap Str α} (h : MapTo P m₁ m₂)
    (h' : MapTo P m₂ m₃) : MapTo P m₁ m₃ := by
  obtain ⟨l, hp, hf⟩ := h
  obtain ⟨l', hp', hf'⟩ := h'
  obtain ⟨k, h1, h2⟩ := (congrFun (congrFun (List.forall₂_comp_perm_eq_perm_comp_forall₂ (r := fun (x y : Str × α) => x.1 = y.1 ∧ P x.2 y.2)) l) l').mp
    ⟨m₂, hf, hp'⟩
  exact ⟨k, hp.trans h1, forall₂_trans (fun a b c h h' => ⟨h.1.trans h'.1, hP _ _ _ h.2 h'.2⟩) h2 hf'⟩

theorem SuiteTo.symm {a b : StmSuite} (h : SuiteTo a b) : SuiteTo b a := ⟨h.1.symm, h.2.symm fun _ _ => StmTo.symm⟩

theorem SuiteTo.trans {a b c : StmSuite} (h : SuiteTo a b) (h' : SuiteTo b c) : SuiteTo a c :=
  ⟨h.1.trans h'.1, h.2.trans (P := StmTo) (fun _ _ _ h h' => StmTo.trans h h') h'.2⟩

theorem SuiteTo.refl (a : StmSuite) : SuiteTo a a := ⟨List.Perm.refl _, MapTo.refl StmTo.refl _⟩

/-- The maps of a suite have each key once. -/
def SuiteMaps (s : StmSuite) : Prop := GoMap.WF s.types ∧ GoMap.WF s.tests ∧ ∀ x ∈ s.tests, StmMaps x.2

theorem SuiteTo.maps {a b : StmSuite} (h : SuiteTo a b) (ha : SuiteMaps a) : SuiteMaps b := by
  obtain ⟨h1, h2⟩ := h
  obtain ⟨w1, w2, w3⟩ := ha
  refine ⟨(h1.map _).nodup_iff.1 w1, h2.wf w2, ?_⟩
  obtain ⟨l, hp, hf⟩ := h2
  have w : ∀ x ∈ l, StmMaps x.2 := fun x hx => w3 x (hp.mem_iff.2 hx)
  generalize b.tests = bt at hf
  clear hp w3 w2 w1 h1
  induction hf with
  | nil => simp
  | cons h _ ih =>
    intro y hy
    rcases List.mem_cons.1 hy with rfl | hy
    · exact h.2.maps (w _ (by simp))
    · exact ih (fun x hx => w x (by simp [hx])) y hy

theorem MapTo.length {α : Type} {P : α → α → Prop} {m m' : GoMap Str α} (h : MapTo P m m') : m'.length = m.length := by
  obtain ⟨l, hp, hf⟩ := h
  rw [hp.length_eq, hf.length_eq]

theorem encodeSuite_to {R : Json → Json → Prop} {r r' : StmSuite} (hm : SuiteMaps r) (h : SuiteTo r r')
    (hR : ∀ x ∈ r.tests, ∀ s, List.Perm x.2.tests s → R (encodeSet x.2.tests) (encodeSet s)) {j : Json} (hj : encodeStmSuite r = .ok j) :
    ∃ j', encodeStmSuite r' = .ok j' ∧ SameBut R [.key c!"tests", .each, .key c!"tests"] j j' := by
  obtain ⟨h1, h2⟩ := h
  obtain ⟨w1, w2, w3⟩ := hm
  unfold encodeStmSuite at hj ⊢
  cases ht : encodeTypes r.types with
  | error f => rw [ht] at hj; cases hj
  | ok ty =>
    have ht' : encodeTypes r'.types = .ok ty := encodeMap_perm w1 h1 ht
    rw [ht] at hj
    rw [ht']
    simp only at hj ⊢
    cases hs : encodeMap encodeStm r.tests with
    | error f => rw [hs] at hj; cases hj
    | ok ts =>
      obtain ⟨fs, fs', rfl, e, hr⟩ := encodeMap_to w2 h2 (fun x hx b j hb he => encodeStm_to (w3 x hx) hb (hR x hx) he) hs
      rw [hs] at hj
      rw [e]
      simp only [Except.ok.injEq] at hj ⊢
      subst hj
      rw [h1.length_eq, h2.length]
      refine ⟨_, rfl, _, _, rfl, rfl, List.rel_append ?_ ?_⟩
      · unfold field
        split
        · exact .nil
        · exact .cons ⟨rfl, .inr ⟨by simp only [Step.into]; decide, rfl⟩⟩ .nil
      · unfold field
        split
        · exact .nil
        · exact .cons ⟨rfl, .inl ⟨rfl, fs, fs', rfl, rfl, hr.imp fun _ _ h => ⟨h.1, .inl ⟨trivial, h.2⟩⟩⟩⟩ .nil

/-! ### building -/

theorem mapM_ok_iff {α β : Type} {f : α → Res β} {l : List α} {r : List β} :
    l.mapM f = .ok r ↔ List.Forall₂ (fun a b => f a = .ok b) l r := by
  induction l generalizing r with
  | nil =>
    cases r <;> simp [pure, Except.pure]
  | cons a l ih =>
    rw [List.mapM_cons]
    cases ha : f a with
    | error e =>
      constructor
      · intro h; cases h
      · rintro (_ | ⟨h, _⟩); rw [ha] at h; cases h
    | ok b =>
      cases hl : l.mapM f with
      | error e =>
        constructor
        · intro h; cases h
        · intro h
          cases h with
          | cons _ h => rw [ih.2 h] at hl; cases hl
      | ok bs =>
        constructor
        · intro h
          cases h
          exact .cons ha (ih.1 hl)
        · intro h
          cases h with
          | cons h1 h =>
            rw [ha] at h1
            rw [ih.2 h] at hl
            cases h1; cases hl
            rfl

theorem mapM_perm {α β : Type} {f : α → Res β} {l l' : List α} (hp : l.Perm l') {r : List β} (h : l.mapM f = .ok r) :
    ∃ r', l'.mapM f = .ok r' ∧ r.Perm r' := by
  obtain ⟨r', h1, h2⟩ := (congrFun (congrFun (List.forall₂_comp_perm_eq_perm_comp_forall₂ (r := fun (b : β) (a : α) => f a = .ok b)) r) l').mp
    ⟨l, (mapM_ok_iff.1 h).flip, hp⟩
  exact ⟨r', mapM_ok_iff.2 h2.flip, h1⟩

theorem buildMany_perm {vs vs' : GoMap Str Validate.Test} (hwf : GoMap.WF vs) (hp : List.Perm vs vs') {b b₁ b₂ : Builder} {ms : GoMap Str Stm}
    (h : b.buildMany vs = .ok (b₁, ms)) : ∃ b' ms', b₂.buildMany vs' = .ok (b', ms') ∧ List.Perm ms ms' := by
  have h1 := buildMany_eq vs hwf b
  rw [h] at h1
  obtain ⟨ms', h2, h3⟩ := mapM_perm hp h1.symm
  have h4 := buildMany_eq vs' ((hp.map _).nodup_iff.1 hwf) b₂
  rw [h2] at h4
  cases hb : b₂.buildMany vs' with
  | error e => rw [hb] at h4; cases h4
  | ok r =>
    rw [hb] at h4
    obtain ⟨b', ms''⟩ := r
    simp only [Except.map, Except.ok.injEq] at h4
    subst h4
    exact ⟨b', ms'', rfl, h3⟩

theorem unify_perm {L L' : List (Str × RsType)} (hg : ∀ x ∈ L, GoodType x.2) (hp : L.Perm L') {t : TypeMap}
    (h : (L.map (fun x => (x.1, some x.2))).foldlM Builder.unifyStep ([] : TypeMap) = .ok t) :
    GoMap.WF t ∧ ∃ t', (L'.map (fun x => (x.1, some x.2))).foldlM Builder.unifyStep ([] : TypeMap) = .ok t' ∧ List.Perm t t' := by
  have hinv : TInv L t := by
    rcases unifyFold_spec L hg with ⟨t', h1, h2⟩ | ⟨h1, _⟩
    · rw [h1] at h; cases h; exact h2
    · rw [h1] at h; cases h
  refine ⟨hinv.1, ?_⟩
  rcases unifyFold_spec L' (fun x hx => hg x (hp.mem_iff.2 hx)) with ⟨t', h1, h2⟩ | ⟨h1, n, y, y', hy, hy', hk⟩
  · refine ⟨t', h1, GoMap.perm_of_equiv hinv.1 h2.1 ?_⟩
    have key : ∀ {L : List (Str × RsType)} {t : TypeMap}, TInv L t → TypesAre t (fun n x => (n, x) ∈ L) := by
      intro L t h name
      refine ⟨(h.2 name).1, fun x hx => ?_⟩
      obtain ⟨ty, e, _, hl⟩ := (h.2 name).2 x hx
      exact ⟨ty, e, hl⟩
    exact typesAre_equiv (fun n x => hp.mem_iff) (key hinv) (key h2)
  · exfalso
    cases hg' : GoMap.get? t n with
    | none => exact (hinv.2 n).1.1 hg' ⟨y, hp.mem_iff.2 hy⟩
    | some x =>
      obtain ⟨ty, _, _, hl⟩ := (hinv.2 n).2 x hg'
      exact hk ((hl.1 y (hp.mem_iff.2 hy)).kind.trans (hl.1 y' (hp.mem_iff.2 hy')).kind.symm)

theorem flat_perm {ms ms' : GoMap Str Stm} (h : MapTo StmTo ms ms') :
    (ms.flatMap (fun nm => nm.2.types)).Perm (ms'.flatMap (fun nm => nm.2.types)) := by
  obtain ⟨l, hp, hf⟩ := h
  refine (hp.flatMap_right _).trans ?_
  clear hp
  induction hf with
  | nil => exact List.Perm.refl _
  | cons h _ ih => exact (h.2.2.1).append ih

theorem entries_of_perm {L : List (Str × RsType)} {es : List (Str × Option RsType)} (hp : (L.map (fun x => (x.1, some x.2))).Perm es) :
    ∃ L' : List (Str × RsType), es = L'.map (fun x => (x.1, some x.2)) ∧ L.Perm L' := by
  have : ∃ L', L.Perm L' ∧ List.Forall₂ (fun (x : Str × RsType) y => (x.1, some x.2) = y) L' es := by
    refine (congrFun (congrFun (List.forall₂_comp_perm_eq_perm_comp_forall₂ (r := fun (x : Str × RsType) y => (x.1, some x.2) = y)) L) es).mp
      ⟨_, ?_, hp⟩
    rw [List.forall₂_map_right_iff]
    exact List.forall₂_same.2 fun _ _ => rfl
  obtain ⟨L', h1, h2⟩ := this
  refine ⟨L', ?_, h1⟩
  clear h1 hp
  induction h2 with
  | nil => rfl
  | cons h _ ih => rw [List.map_cons, h, ← ih]

theorem unifyTypes_perm {ts : GoMap Str Validate.Test} (hwf : GoMap.WF ts) (hv : Validated ts) {b b' : Builder} {ms ms₁ ms₂ : GoMap Str Stm}
    (h : b.buildMany ts = .ok (b', ms)) (h1 : MapTo StmTo ms ms₁) (h2 : MapTo StmTo ms ms₂) {t : TypeMap} (ht : Builder.unifyTypes ms₁ = .ok t) :
    GoMap.WF t ∧ ∃ t', Builder.unifyTypes ms₂ = .ok t' ∧ List.Perm t t' := by
  have hm := buildMany_eq ts hwf b
  rw [h] at hm
  rcases many_cases ts hv with ⟨ms', hms, hf⟩ | ⟨hms, _⟩
  · rw [hms] at hm
    cases hm
    obtain ⟨L, e, g, _⟩ := suite_entries hv hf
    obtain ⟨L₁, e₁, p₁⟩ := entries_of_perm (e ▸ flat_perm h1)
    obtain ⟨L₂, e₂, p₂⟩ := entries_of_perm (e ▸ flat_perm h2)
    unfold Builder.unifyTypes at ht ⊢
    rw [unifyTypes_flat, e₁] at ht
    rw [unifyTypes_flat, e₂]
    exact unify_perm (fun x hx => g x (p₁.mem_iff.2 hx)) (p₁.symm.trans p₂) ht
  · rw [hms] at hm; cases hm

theorem buildMany_maps {ts : GoMap Str Validate.Test} (hwf : GoMap.WF ts) (hv : Validated ts) {b b' : Builder} {ms : GoMap Str Stm}
    (h : b.buildMany ts = .ok (b', ms)) : GoMap.WF ms ∧ ∀ x ∈ ms, ∃ t b₁ t', (x.1, t) ∈ ts ∧ Builder.zero.build t = some (.ok (b₁, x.2, t')) := by
  have hm := buildMany_eq ts hwf b
  rw [h] at hm
  have hf := mapM_ok_iff.1 hm.symm
  have hf' : List.Forall₂ (fun nt nm => nm.1 = nt.1 ∧ buildOne nt.2 = .ok nm.2) ts ms := by
    refine hf.imp fun nt nm hh => ?_
    cases hb : buildOne nt.2 with
    | error e => rw [hb] at hh; cases hh
    | ok m => rw [hb] at hh; cases hh; exact ⟨rfl, rfl⟩
  constructor
  · unfold GoMap.WF
    have : ms.map (·.1) = ts.map (·.1) := by
      clear hf hm h hv hwf
      induction hf' with
      | nil => rfl
      | cons h _ ih => rw [List.map_cons, List.map_cons, h.1, ih]
    rw [this]; exact hwf
  · intro x hx
    have : ∃ nt ∈ ts, x.1 = nt.1 ∧ buildOne nt.2 = .ok x.2 := by
      clear hf hm h hv hwf
      induction hf' with
      | nil => cases hx
      | @cons nt nm _ _ h _ ih =>
        rcases List.mem_cons.1 hx with rfl | hx
        · exact ⟨nt, by simp, h⟩
        · obtain ⟨nt, h1, h2⟩ := ih hx
          exact ⟨nt, by simp [h1], h2⟩
    obtain ⟨nt, hnt, e, hb⟩ := this
    unfold buildOne at hb
    cases hbb : Builder.zero.build nt.2 with
    | none => rw [hbb] at hb; cases hb
    | some r =>
      rw [hbb] at hb
      simp only [Option.getD_some] at hb
      cases r with
      | error f => cases hb
      | ok r =>
        obtain ⟨b₁, m, t'⟩ := r
        cases hb
        exact ⟨nt.2, b₁, t', by rw [e]; exact hnt, hbb⟩

/-! ### rtcg-make-stms -/

theorem sameBut_eq {p : List Step} {a b : Json} (h : SameBut Eq p a b) : a = b := by
  induction p generalizing a b with
  | nil => exact h
  | cons s p ih =>
    obtain ⟨fs, fs', rfl, rfl, hf⟩ := h
    congr 1
    induction hf with
    | nil => rfl
    | cons h _ ih' =>
      rw [ih']
      congr 1
      refine Prod.ext h.1 ?_
      rcases h.2 with ⟨_, h⟩ | ⟨_, h⟩
      · exact ih h
      · exact h

/-- A possible run that writes something, taken apart. -/
theorem may_ok {input j : Json} (h : MayMakeStms input (.ok j)) : ∃ s vs b ms types stms, decodeSuite input = .ok s ∧
    (∃ s', List.Perm s s' ∧ Validate.fullSuite s' = .ok vs) ∧ GoMap.WF vs ∧ Validated vs ∧ Builder.zero.buildMany vs = .ok (b, ms) ∧
    (∃ ms', MapTo StmTo ms ms' ∧ Builder.unifyTypes ms' = .ok types) ∧ SuiteMaps ⟨types, ms⟩ ∧ SuiteTo ⟨types, ms⟩ stms ∧
    encodeStmSuite stms = .ok j := by
  unfold MayMakeStms at h
  cases hs : decodeSuite input with
  | error f => rw [hs] at h; cases h
  | ok s =>
    rw [hs] at h
    obtain ⟨s', hp, h⟩ := h
    have hws : GoMap.WF s' := (hp.map _).nodup_iff.1 (decodeMap_wf hs)
    cases hv : Validate.fullSuite s' with
    | error f => rw [hv] at h; cases h
    | ok vs =>
      rw [hv] at h
      obtain ⟨vs', hp', h⟩ := h
      obtain ⟨hwf, hval⟩ := C36_validated s' hws vs hv
      have hwf' : GoMap.WF vs' := (hp'.map _).nodup_iff.1 hwf
      have hval' : Validated vs' := fun nt hnt => hval nt (hp'.mem_iff.2 hnt)
      cases hb : Builder.zero.buildMany vs' with
      | error f => rw [hb] at h; cases h
      | ok r =>
        obtain ⟨b, ms⟩ := r
        rw [hb] at h
        obtain ⟨ms', hms, h⟩ := h
        cases hu : Builder.unifyTypes ms' with
        | error f => rw [hu] at h; cases h
        | ok types =>
          rw [hu] at h
          obtain ⟨stms, hto, h⟩ := h
          obtain ⟨b', msv, hb', hpm⟩ := buildMany_perm (b₂ := Builder.zero) hwf' hp'.symm hb
          obtain ⟨w1, w2⟩ := buildMany_maps hwf hval hb'
          have hmsv : MapTo StmTo msv ms := MapTo.of_perm StmTo.refl hpm.symm
          have hmsv' : MapTo StmTo msv ms' := hmsv.trans (P := StmTo) (fun _ _ _ h h' => StmTo.trans h h') hms
          have htw := (unifyTypes_perm hwf hval hb' hmsv' hmsv' hu).1
          refine ⟨s, vs, b', msv, types, stms, rfl, ⟨s', hp, hv⟩, hwf, hval, hb', ⟨ms', hmsv', hu⟩, ⟨htw, w1, ?_⟩,
            SuiteTo.trans (b := ⟨types, ms⟩) ⟨List.Perm.refl _, hmsv⟩ hto, h.symm⟩
          intro x hx
          obtain ⟨t, b₁, t', ht, hbt⟩ := w2 x hx
          exact stm_maps (hval _ ht) hbt

theorem may_any {input j : Json} {out : Res Json} (h : MayMakeStms input (.ok j)) (h' : MayMakeStms input out) :
    ∃ j', out = .ok j' ∧ SameButOrder j j' ∧ ((∀ s, decodeSuite input = .ok s → OneTest s) → j = j') := by
  obtain ⟨s, vs, b, ms, types, stms, hs, ⟨s₁, hp₁, hv₁⟩, hwf, hval, hb, ⟨ms₁, hms₁, hu₁⟩, hmaps, hto, hj⟩ := may_ok h
  unfold MayMakeStms at h'
  rw [hs] at h'
  obtain ⟨s₂, hp₂, h'⟩ := h'
  have hw₁ : GoMap.WF s₁ := (hp₁.map _).nodup_iff.1 (decodeMap_wf hs)
  obtain ⟨v₂, hv₂, hpv⟩ := C25_order s₁ s₂ hw₁ (hp₁.symm.trans hp₂) vs hv₁
  rw [hv₂] at h'
  obtain ⟨vs₂, hpv₂, h'⟩ := h'
  obtain ⟨b₂, ms₂, hb₂, hpm⟩ := buildMany_perm (b₂ := Builder.zero) hwf (hpv.trans hpv₂) hb
  rw [hb₂] at h'
  obtain ⟨ms₂', hms₂', h'⟩ := h'
  have hm₂ : MapTo StmTo ms ms₂ := MapTo.of_perm StmTo.refl hpm
  obtain ⟨_, types₂, hu₂, htp⟩ := unifyTypes_perm hwf hval hb hms₁ (hm₂.trans (P := StmTo) (fun _ _ _ h h' => StmTo.trans h h') hms₂') hu₁
  rw [hu₂] at h'
  obtain ⟨stms₂, hto₂, rfl⟩ := h'
  have h12 : SuiteTo stms stms₂ := (hto.symm.trans ⟨htp, hm₂⟩).trans hto₂
  obtain ⟨j', hj', hsame⟩ := encodeSuite_to (R := Rearranged) (hto.maps hmaps) h12 (fun _ _ _ => rearranged_set) hj
  refine ⟨j', hj', hsame, fun hone => ?_⟩
  have hR : ∀ x ∈ stms.tests, ∀ t, List.Perm x.2.tests t → encodeSet x.2.tests = encodeSet t := by
    intro x hx t ht
    -- the machine is a built one with its tests in some order
    obtain ⟨y, hy, hxy⟩ : ∃ y ∈ ms, List.Perm y.2.tests x.2.tests := by
      obtain ⟨l, hp, hf⟩ := hto.2
      have : ∃ y ∈ l, List.Perm y.2.tests x.2.tests := by
        clear hp
        generalize stms.tests = st at hf hx
        induction hf with
        | nil => cases hx
        | @cons a b _ _ h _ ih =>
          rcases List.mem_cons.1 hx with rfl | hx
          · exact ⟨a, by simp, h.2.2.2⟩
          · obtain ⟨y, h1, h2⟩ := ih hx
            exact ⟨y, by simp [h1], h2⟩
      obtain ⟨y, hy, h⟩ := this
      exact ⟨y, hp.mem_iff.2 hy, h⟩
    obtain ⟨t', b₁, t'', ht', hbt⟩ := (buildMany_maps hwf hval hb).2 y hy
    obtain ⟨hnd, hmem, _⟩ := C33_tests _ _ _ _ _ _ (hval _ ht') hbt
    have hroot : (y.1, some t'.root) ∈ s := by
      have hfs := ((C25_fullSuite_iff s₁ hw₁ vs).1 hv₁).1
      refine hp₁.mem_iff.2 ?_
      rw [← hfs]
      exact List.mem_map.2 ⟨_, ht', rfl⟩
    have hle : (GoSet.values y.2.tests).length ≤ 1 := by
      match hl : GoSet.values y.2.tests with
      | [] => simp
      | [_] => simp
      | a :: b :: l =>
        exfalso
        rw [hl] at hnd hmem
        have := hone s hs _ _ hroot a b ((hmem a).1 (by simp)) ((hmem b).1 (by simp))
        simp [this] at hnd
    have hperm : (GoSet.values y.2.tests).Perm (GoSet.values x.2.tests) := by
      unfold GoSet.values; exact (hxy.filter _).map _
    have hperm' : (GoSet.values x.2.tests).Perm (GoSet.values t) := by
      unfold GoSet.values; exact (ht.filter _).map _
    have hle' : (GoSet.values x.2.tests).length ≤ 1 := by rw [← hperm.length_eq]; exact hle
    unfold encodeSet
    congr 2
    match hl : GoSet.values x.2.tests with
    | [] => rw [hl] at hperm'; exact (List.nil_perm.1 hperm').symm
    | [a] => rw [hl] at hperm'; exact (List.perm_singleton.1 hperm'.symm).symm
    | a :: b :: l => rw [hl] at hle'; simp at hle'
  obtain ⟨j'', hj'', hsame'⟩ := encodeSuite_to (R := Eq) (hto.maps hmaps) h12 hR hj
  rw [hj'] at hj''
  cases hj''
  exact sameBut_eq hsame'

theorem may_program (input : Json) : MayMakeStms input (makeStmsProgram input) := by
  unfold MayMakeStms makeStmsProgram
  cases decodeSuite input with
  | error f => rfl
  | ok s =>
    refine ⟨s, List.Perm.refl _, ?_⟩
    simp only
    cases Validate.fullSuite s with
    | error f => rfl
    | ok vs =>
      refine ⟨vs, List.Perm.refl _, ?_⟩
      simp only [Builder.buildSuite]
      cases Builder.zero.buildMany vs with
      | error f => rfl
      | ok r =>
        obtain ⟨b, ms⟩ := r
        refine ⟨ms, MapTo.refl StmTo.refl _, ?_⟩
        simp only
        cases Builder.unifyTypes ms with
        | error f => rfl
        | ok types => exact ⟨_, SuiteTo.refl _, rfl⟩

end Rtcg.Order
