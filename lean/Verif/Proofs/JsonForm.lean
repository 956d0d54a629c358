import Verif.Spec.JsonForm
import Verif.Proofs.JsonRead
import Verif.Props.Csv
import Verif.Props.Lang
import Verif.Props.Tree

/-
What is decoded from JSON is what the JSON says.
-/

namespace Rtcg.JsonForm

open Rtcg Rtcg.Json Rtcg.Spec Rtcg.Spec.JsonForm

/-! ### field names -/

theorem foldChar_eq (c : Char) : foldChar c = if c = '\u017f' then 's' else if c = '\u212a' then 'k' else c.toLower := by
  unfold foldChar
  by_cases h : 'A' ≤ c ∧ c ≤ 'Z'
  · rw [if_pos h]
    have h1 : c ≠ '\u017f' := by rintro rfl; revert h; decide
    have h2 : c ≠ '\u212a' := by rintro rfl; revert h; decide
    rw [if_neg h1, if_neg h2]
    unfold Char.toLower
    have h3 : c.val ≥ 'A'.val ∧ c.val ≤ 'Z'.val := h
    have hn : 65 ≤ c.toNat ∧ c.toNat ≤ 90 := h3
    rw [dif_pos h3]
    apply Char.ext
    apply UInt32.toNat.inj
    have hv : (c.toNat + 32).isValidChar := Or.inl (by omega)
    rw [Char.ofNat, dif_pos hv]
    show (Char.ofNatAux _ hv).val.toNat = (c.val + 32).toNat
    rw [UInt32.toNat_add]
    show c.toNat + 32 = (c.toNat + 32) % 4294967296
    omega
  · rw [if_neg h]
    have h' : ¬ (c.val ≥ 'A'.val ∧ c.val ≤ 'Z'.val) := h
    have : c.toLower = c := by
      unfold Char.toLower
      rw [dif_neg h']
    rw [this]

/-- A name made of letters. -/
def Letters (name : Str) : Bool := name.all fun c => decide ('a' ≤ c ∧ c ≤ 'z') || decide ('A' ≤ c ∧ c ≤ 'Z')

theorem lower_letter {l : Char} (h : ('a' ≤ l ∧ l ≤ 'z') ∨ ('A' ≤ l ∧ l ≤ 'Z')) : 'a' ≤ l.toLower ∧ l.toLower ≤ 'z' := by
  rcases h with h | h
  · have h' : ¬ (l.val ≥ 'A'.val ∧ l.val ≤ 'Z'.val) := by
      rintro ⟨_, h2⟩
      have a : 97 ≤ l.val.toNat := h.1
      have b : l.val.toNat ≤ 90 := h2
      omega
    unfold Char.toLower
    rw [dif_neg h']
    exact h
  · have h3 : l.val ≥ 'A'.val ∧ l.val ≤ 'Z'.val := h
    have hn : 65 ≤ l.toNat ∧ l.toNat ≤ 90 := h3
    unfold Char.toLower
    rw [dif_pos h3]
    have e : (l.val + 32).toNat = l.toNat + 32 := by
      rw [UInt32.toNat_add]
      show (l.toNat + 32) % 4294967296 = l.toNat + 32
      omega
    constructor
    · show 97 ≤ (l.val + 32).toNat
      omega
    · show (l.val + 32).toNat ≤ 122
      omega

theorem fold_iff {c l : Char} (h : ('a' ≤ l ∧ l ≤ 'z') ∨ ('A' ≤ l ∧ l ≤ 'Z')) : foldChar c = foldChar l ↔ StandsFor c l := by
  have hl := lower_letter h
  have l1 : l ≠ '\u017f' := by rintro rfl; revert h; decide
  have l2 : l ≠ '\u212a' := by rintro rfl; revert h; decide
  rw [foldChar_eq, foldChar_eq l, if_neg l1, if_neg l2]
  unfold StandsFor
  by_cases h1 : c = '\u017f'
  · subst h1
    rw [if_pos rfl]
    have e1 : Char.toLower '\u017f' ≠ l.toLower := by
      intro e; rw [← e] at hl; revert hl; decide
    constructor
    · intro e; exact .inr (.inl ⟨rfl, e.symm⟩)
    · rintro (e | ⟨_, e⟩ | ⟨e, _⟩)
      · exact absurd e e1
      · exact e.symm
      · exact absurd e (by decide)
  · rw [if_neg h1]
    by_cases h2 : c = '\u212a'
    · subst h2
      rw [if_pos rfl]
      have e1 : Char.toLower '\u212a' ≠ l.toLower := by
        intro e; rw [← e] at hl; revert hl; decide
      constructor
      · intro e; exact .inr (.inr ⟨rfl, e.symm⟩)
      · rintro (e | ⟨e, _⟩ | ⟨_, e⟩)
        · exact absurd e e1
        · exact absurd e (by decide)
        · exact e.symm
    · rw [if_neg h2]
      constructor
      · exact .inl
      · rintro (e | ⟨e, _⟩ | ⟨e, _⟩)
        · exact e
        · exact absurd e h1
        · exact absurd e h2

theorem isField_iff {name key : Str} (hn : Letters name = true) : isField name key = true ↔ Named name key := by
  unfold isField Named
  rw [decide_eq_true_iff]
  induction name generalizing key with
  | nil => cases key <;> simp
  | cons l name ih =>
    simp only [Letters, List.all_cons, Bool.and_eq_true] at hn
    cases key with
    | nil => simp
    | cons c key =>
      rw [List.map_cons, List.map_cons, List.cons.injEq, List.forall₂_cons, ih hn.2, fold_iff (by simpa using hn.1)]

/-- A key is the name of one field only. -/
theorem isField_ne {a b k : Str} (h : a.map foldChar ≠ b.map foldChar) (hk : isField b k = true) : isField a k = false := by
  unfold isField at hk ⊢
  rw [decide_eq_true_iff] at hk
  rw [decide_eq_false_iff_not, hk]
  exact Ne.symm h

/-! ### fields -/

theorem field_sound {σ α : Type} {dec : σ → Str → Json → Res σ} {get : σ → α} {D : α → Json → Res α} {name : Str}
    (h1 : ∀ s k j s', dec s k j = .ok s' → ¬ Named name k → get s' = get s)
    (h2 : ∀ s k j s', dec s k j = .ok s' → Named name k → D (get s) j = .ok (get s'))
    {fs : List (Str × Json)} : ∀ {s s' : σ}, Once fs name → decodeFields dec s fs = .ok s' →
    ((∀ f ∈ fs, ¬ Named name f.1) ∧ get s' = get s) ∨ ∃ j, Last (Named name) fs j ∧ D (get s) j = .ok (get s') := by
  induction fs with
  | nil => intro s s' _ h; cases h; exact .inl ⟨by simp, rfl⟩
  | cons f fs ih =>
    intro s s' ho h
    obtain ⟨k, j⟩ := f
    rw [decodeFields] at h
    cases hd : dec s k j with
    | error e => rw [hd] at h; cases h
    | ok s1 =>
      rw [hd] at h
      simp only at h
      obtain ⟨ho1, ho2⟩ := List.pairwise_cons.1 ho
      have hi := ih ho2 h
      by_cases hk : Named name k
      · have hno : ∀ f ∈ fs, ¬ Named name f.1 := fun f hf e => ho1 f hf ⟨hk, e⟩
        rcases hi with ⟨_, hi⟩ | ⟨j', ⟨pre, key, post, rfl, hkey, _⟩, _⟩
        · exact .inr ⟨j, ⟨[], k, fs, rfl, hk, hno⟩, by rw [hi]; exact h2 _ _ _ _ hd hk⟩
        · exact absurd hkey (hno (key, j') (by simp))
      · have hg := h1 _ _ _ _ hd hk
        rcases hi with ⟨hi1, hi⟩ | ⟨j', ⟨pre, key, post, rfl, hkey, hpost⟩, hD⟩
        · refine .inl ⟨fun f hf => ?_, hi.trans hg⟩
          rcases List.mem_cons.1 hf with rfl | hf
          · exact hk
          · exact hi1 f hf
        · exact .inr ⟨j', ⟨(k, j) :: pre, key, post, rfl, hkey, hpost⟩, by rw [← hg]; exact hD⟩

/-- A field that was decoded has the value it was given. -/
theorem field_says {σ α : Type} {dec : σ → Str → Json → Res σ} {get : σ → α} {D : α → Json → Res α} {name : Str}
    (h1 : ∀ s k j s', dec s k j = .ok s' → ¬ Named name k → get s' = get s)
    (h2 : ∀ s k j s', dec s k j = .ok s' → Named name k → D (get s) j = .ok (get s'))
    {fs : List (Str × Json)} {s s' : σ} (ho : Once fs name) (h : decodeFields dec s fs = .ok s')
    {Says : Json → α → Prop} (hD : ∀ key j x, (key, j) ∈ fs → Named name key → D (get s) j = .ok x → OrNull Says (get s) j x) :
    Field name Says (get s) fs (get s') := by
  rcases field_sound h1 h2 ho h with h | ⟨j, hl, hj⟩
  · exact .inl h
  · refine .inr ⟨j, hl, ?_⟩
    obtain ⟨pre, key, post, rfl, hk, _⟩ := hl
    exact hD key j _ (by simp) hk hj

theorem fields_complete {σ : Type} {dec : σ → Str → Json → Res σ} {fs : List (Str × Json)}
    (h : ∀ f ∈ fs, ∀ s, ∃ s', dec s f.1 f.2 = .ok s') : ∀ s, ∃ s', decodeFields dec s fs = .ok s' := by
  induction fs with
  | nil => intro s; exact ⟨s, rfl⟩
  | cons f fs ih =>
    intro s
    obtain ⟨k, j⟩ := f
    obtain ⟨s1, h1⟩ := h (k, j) (by simp) s
    obtain ⟨s', h'⟩ := ih (fun f hf => h f (by simp [hf])) s1
    exact ⟨s', by rw [decodeFields, h1]; exact h'⟩

theorem once_unique {name : Str} {fs : List (Str × Json)} (ho : Once fs name) {j : Json} (hl : Last (Named name) fs j) {key : Str} {j' : Json}
    (hm : (key, j') ∈ fs) (hk : Named name key) : j' = j := by
  obtain ⟨pre, key', post, rfl, hk', hpost⟩ := hl
  rcases List.mem_append.1 hm with hm | hm
  · have := (List.pairwise_append.1 ho).2.2 (key, j') hm (key', j) (by simp)
    exact absurd ⟨hk, hk'⟩ this
  · rcases List.mem_cons.1 hm with e | hm
    · cases e; rfl
    · exact absurd hk (hpost _ hm)

/-- What a field holds that is given and has a value. -/
theorem field_value {α : Type} {name : Str} {Says : Json → α → Prop} {dflt : α} {fs : List (Str × Json)} {x : α}
    (hf : Field name Says dflt fs x) (ho : Once fs name) {key : Str} {j : Json} (hm : (key, j) ∈ fs) (hk : Named name key) :
    OrNull Says dflt j x := by
  rcases hf with ⟨h, _⟩ | ⟨j', hl, hj⟩
  · exact absurd hk (h _ hm)
  · rw [once_unique ho hl hm hk]; exact hj

theorem last_unique {P : Str → Prop} {fs : List (Str × Json)} {j j' : Json} (h : Last P fs j) (h' : Last P fs j') : j = j' := by
  obtain ⟨pre, k, post, rfl, hk, hp⟩ := h
  obtain ⟨pre', k', post', e, hk', hp'⟩ := h'
  induction pre generalizing pre' with
  | nil =>
    cases pre' with
    | nil => simp only [List.nil_append, List.cons.injEq, Prod.mk.injEq] at e; exact e.1.2
    | cons x pre' =>
      simp only [List.nil_append, List.cons_append, List.cons.injEq] at e
      obtain ⟨_, rfl⟩ := e
      exact absurd hk' (hp (k', j') (by simp))
  | cons x pre ih =>
    cases pre' with
    | nil =>
      simp only [List.nil_append, List.cons_append, List.cons.injEq] at e
      obtain ⟨_, e⟩ := e
      exact absurd hk (hp' (k, j) (by rw [← e]; simp))
    | cons x' pre' =>
      simp only [List.cons_append, List.cons.injEq] at e
      exact ih pre' e.2

/-! ### lists and maps -/

theorem list_iff {α : Type} {dec : Json → Res α} {Says : Json → α → Prop} {js : List Json} (h : ∀ j ∈ js, ∀ x, dec j = .ok x ↔ Says j x)
    (xs : List α) : decodeElems dec js = .ok xs ↔ List.Forall₂ Says js xs := by
  induction js generalizing xs with
  | nil => cases xs <;> simp [decodeElems]
  | cons j js ih =>
    have ih := ih fun j hj => h j (by simp [hj])
    rw [decodeElems]
    cases hd : dec j with
    | error e =>
      simp only [reduceCtorEq, false_iff]
      intro hf
      cases hf with
      | cons h1 _ => rw [(h j (by simp) _).2 h1] at hd; cases hd
    | ok x =>
      simp only
      cases hds : decodeElems dec js with
      | error e =>
        simp only [reduceCtorEq, false_iff]
        intro hf
        cases hf with
        | cons _ h2 => rw [(ih _).2 h2] at hds; cases hds
      | ok ys =>
        simp only [Except.ok.injEq]
        constructor
        · rintro rfl
          exact .cons ((h j (by simp) x).1 hd) ((ih ys).1 hds)
        · intro hf
          cases hf with
          | cons h1 h2 =>
            rw [(h j (by simp) _).2 h1] at hd
            rw [(ih _).2 h2] at hds
            cases hd; cases hds; rfl

theorem elems_sound {α : Type} {dec : Json → Res α} {Says : Json → α → Prop} {js : List Json} (h : ∀ j ∈ js, ∀ x, dec j = .ok x → Says j x)
    {xs : List α} (hd : decodeElems dec js = .ok xs) : List.Forall₂ Says js xs := by
  induction js generalizing xs with
  | nil => cases hd; exact .nil
  | cons j js ih =>
    rw [decodeElems] at hd
    cases h1 : dec j with
    | error e => rw [h1] at hd; cases hd
    | ok x =>
      rw [h1] at hd
      simp only at hd
      cases h2 : decodeElems dec js with
      | error e => rw [h2] at hd; cases hd
      | ok ys =>
        rw [h2] at hd
        cases hd
        exact .cons (h j (by simp) x h1) (ih (fun j hj => h j (by simp [hj])) h2)

theorem elems_complete {α : Type} {dec : Json → Res α} {js : List Json} (h : ∀ j ∈ js, ∃ x, dec j = .ok x) :
    ∃ xs, decodeElems dec js = .ok xs := by
  induction js with
  | nil => exact ⟨[], rfl⟩
  | cons j js ih =>
    obtain ⟨x, hx⟩ := h j (by simp)
    obtain ⟨xs, hxs⟩ := ih fun j hj => h j (by simp [hj])
    exact ⟨x :: xs, by rw [decodeElems, hx]; simp only; rw [hxs]⟩

theorem entries_sound {α : Type} {dec : Json → Res α} {fs : List (Str × Json)} : ∀ {acc m : GoMap Str α},
    decodeEntries dec acc fs = .ok m →
    (∀ f ∈ fs, ∃ x, dec f.2 = .ok x) ∧ (∀ f ∈ fs, ∃ x, GoMap.get? m f.1 = some x) ∧
    (∀ k x, GoMap.get? acc k = some x → ∃ x, GoMap.get? m k = some x) ∧
    ∀ k x, GoMap.get? m k = some x →
      (∃ j, Last (· = k) fs j ∧ dec j = .ok x) ∨ ((∀ f ∈ fs, f.1 ≠ k) ∧ GoMap.get? acc k = some x) := by
  induction fs with
  | nil =>
    intro acc m h
    cases h
    exact ⟨by simp, by simp, fun k x h => ⟨x, h⟩, fun k x h => .inr ⟨by simp, h⟩⟩
  | cons f fs ih =>
    intro acc m h
    obtain ⟨k, j⟩ := f
    rw [decodeEntries] at h
    cases hd : dec j with
    | error e => rw [hd] at h; cases h
    | ok a =>
      rw [hd] at h
      simp only at h
      obtain ⟨i1, i2, i3, i4⟩ := ih h
      have hself : ∃ x, GoMap.get? m k = some x := i3 k a (by rw [GoMap.get?_set, if_pos rfl])
      refine ⟨?_, ?_, ?_, ?_⟩
      · intro f hf
        rcases List.mem_cons.1 hf with rfl | hf
        · exact ⟨a, hd⟩
        · exact i1 f hf
      · intro f hf
        rcases List.mem_cons.1 hf with rfl | hf
        · exact hself
        · exact i2 f hf
      · intro k' x hx
        by_cases hkk : k' = k
        · subst hkk; exact hself
        · exact i3 k' x (by rw [GoMap.get?_set, if_neg (fun e => hkk e.symm)]; exact hx)
      · intro k' x hx
        rcases i4 k' x hx with ⟨j', ⟨pre, key, post, rfl, hk, hp⟩, hj⟩ | ⟨hno, hx⟩
        · exact .inl ⟨j', ⟨(k, j) :: pre, key, post, rfl, hk, hp⟩, hj⟩
        · rw [GoMap.get?_set] at hx
          by_cases hkk : k' = k
          · rw [if_pos hkk.symm] at hx
            cases hx
            exact .inl ⟨j, ⟨[], k, fs, rfl, hkk.symm, hno⟩, hd⟩
          · rw [if_neg (fun e => hkk e.symm)] at hx
            refine .inr ⟨fun f hf => ?_, hx⟩
            rcases List.mem_cons.1 hf with rfl | hf
            · exact fun e => hkk e.symm
            · exact hno f hf

theorem map_sound {α : Type} {dec : Json → Res α} {Says : Json → α → Prop} {fs : List (Str × Json)}
    (h : ∀ f ∈ fs, ∀ x, dec f.2 = .ok x → Says f.2 x) {m : GoMap Str α} (hd : decodeMap dec (.obj fs) = .ok m) : SaysMap Says (.obj fs) m := by
  have hwf := decodeMap_wf hd
  obtain ⟨i1, i2, _, i4⟩ := entries_sound hd
  refine ⟨fs, rfl, hwf, fun f hf => ?_, fun f hf => ?_, fun k x hx => ?_⟩
  · obtain ⟨x, hx⟩ := i1 f hf
    exact ⟨x, h f hf x hx⟩
  · obtain ⟨x, hx⟩ := i2 f hf
    exact ⟨x, (GoMap.get?_eq_some_iff hwf).1 hx⟩
  · rcases i4 k x ((GoMap.get?_eq_some_iff hwf).2 hx) with ⟨j, hl, hj⟩ | ⟨_, hx⟩
    · refine ⟨j, hl, ?_⟩
      obtain ⟨pre, key, post, rfl, _, _⟩ := hl
      exact h (key, j) (by simp) x hj
    · cases hx

theorem map_complete {α : Type} {dec : Json → Res α} {fs : List (Str × Json)} (h : ∀ f ∈ fs, ∃ x, dec f.2 = .ok x) :
    ∃ m, decodeMap dec (.obj fs) = .ok m := by
  have : ∀ acc, ∃ m, decodeEntries dec acc fs = .ok m := by
    induction fs with
    | nil => intro acc; exact ⟨acc, rfl⟩
    | cons f fs ih =>
      intro acc
      obtain ⟨k, j⟩ := f
      obtain ⟨x, hx⟩ := h (k, j) (by simp)
      obtain ⟨m, hm⟩ := ih (fun f hf => h f (by simp [hf])) (GoMap.set acc k x)
      exact ⟨m, by rw [decodeEntries, hx]; exact hm⟩
  exact this []

/-! ### texts -/

theorem str_iff (o : Str) (j : Json) (x : Str) : decodeStr o j = .ok x ↔ OrNull SaysStr o j x := by
  unfold OrNull SaysStr
  cases j <;> simp [decodeStr, throwErr, eq_comm]

theorem outcomeText_iff (s : Str) (o : Outcome) : Outcome.parse s = .ok o ↔ OutcomeText s o := C01_outcome.accepts s o

theorem outcome_iff (o : Outcome) (j : Json) (x : Outcome) : decodeOutcome o j = .ok x ↔ OrNull SaysOutcome o j x := by
  unfold OrNull SaysOutcome
  cases j with
  | null => simp [decodeOutcome, eq_comm]
  | str s => simp [decodeOutcome, outcomeText_iff]
  | _ => simp [decodeOutcome, throwErr]

theorem event_iff (j : Json) (x : Option Event) : decodeEvent none j = .ok x ↔ OrNull SaysEvent none j x := by
  unfold OrNull SaysEvent
  cases j with
  | null => simp [decodeEvent, eq_comm]
  | str s =>
    have he : ∀ e, Event.parse s = .ok e ↔ EventText s e := eventText_iff s
    unfold Event.parse at he
    simp only [decodeEvent, Option.getD_none]
    cases hu : Event.unmarshalText Event.zero s with
    | mk e f =>
      rw [hu] at he
      cases f with
      | none =>
        simp only [Except.ok.injEq] at he
        simp only [Except.ok.injEq, reduceCtorEq, false_and, false_or, Json.str.injEq]
        constructor
        · rintro rfl; exact ⟨s, e, rfl, rfl, (he e).1 rfl⟩
        · rintro ⟨_, e', rfl, rfl, h⟩; rw [(he e').2 h]
      | some f =>
        simp only [reduceCtorEq, false_iff] at he
        simp only [reduceCtorEq, false_and, false_or, Json.str.injEq, false_iff]
        rintro ⟨_, e', rfl, rfl, h⟩
        exact he e' h
  | _ => simp [decodeEvent, throwErr]

theorem channel_iff (o : Channel) (j : Json) (x : Channel) : decodeChannel o j = .ok x ↔ OrNull SaysChannel o j x := by
  unfold OrNull SaysChannel
  cases j with
  | null => simp [decodeChannel, eq_comm]
  | str s =>
    have hc := (C03_channel_acceptance o s).1
    simp only [decodeChannel, Channel.unmarshalText]
    cases hu : Channel.unmarshalTextWithRemainder o s with
    | mk c r =>
      rw [hu] at hc
      cases r with
      | ok r =>
        simp only [Except.ok.injEq, reduceCtorEq, false_and, false_or, Json.str.injEq]
        constructor
        · rintro rfl; exact ⟨s, r, rfl, (hc c r).1 rfl⟩
        · rintro ⟨_, r', rfl, h⟩
          have := (hc x r').2 h
          simp only [Prod.mk.injEq] at this
          exact this.1
      | error e =>
        simp only [reduceCtorEq, false_and, false_or, Json.str.injEq, false_iff]
        rintro ⟨_, r', rfl, h⟩
        have := (hc x r').2 h
        simp at this
  | _ => simp [decodeChannel, throwErr]

theorem value_iff (o : Value) (j : Json) (x : Value) : decodeValue o j = .ok x ↔ OrNull SaysValue o j x := by
  unfold OrNull SaysValue
  cases j with
  | null => simp [decodeValue, eq_comm]
  | str s => simp [decodeValue, readsAsValue_iff]
  | _ => simp [decodeValue, throwErr]

theorem type_iff (j : Json) (x : Option RsType) : decodeType j = .ok x ↔ OrNull SaysType none j x := by
  unfold OrNull SaysType
  cases j with
  | null => simp [decodeType, eq_comm]
  | str s =>
    have ht := C10_type_parse s
    simp only [decodeType]
    cases hu : RsType.unmarshalText s with
    | error e =>
      simp only [hu, reduceCtorEq, false_iff] at ht
      simp only [reduceCtorEq, false_and, false_or, Json.str.injEq, false_iff]
      rintro ⟨_, t, name, rfl, rfl, h⟩
      exact ht t ⟨name, h⟩
    | ok t =>
      simp only [hu, Except.ok.injEq] at ht
      simp only [Except.ok.injEq, reduceCtorEq, false_and, false_or, Json.str.injEq]
      constructor
      · rintro rfl
        obtain ⟨name, h⟩ := (ht t).1 rfl
        exact ⟨s, t, name, rfl, rfl, h⟩
      · rintro ⟨_, t', name, rfl, rfl, h⟩
        rw [(ht t').2 ⟨name, h⟩]
  | _ => simp [decodeType, throwErr]

theorem strs_iff (j : Json) (x : List Str) : decodeList (decodeStr []) j = .ok x ↔ OrNull SaysStrs [] j x := by
  unfold OrNull SaysStrs SaysList
  cases j with
  | null => simp [decodeList, eq_comm]
  | arr js => simp [decodeList, list_iff (fun j _ x => str_iff [] j x)]
  | _ => simp [decodeList, throwErr]

/-! ### structs -/

/-- A field that is not the one named stays as it is. -/
macro "other_fields" d:ident : tactic => `(tactic| (
  intro s k j s' h hn
  rw [← isField_iff (by decide)] at hn
  simp only [$d:ident] at h
  repeat' split at h
  all_goals first
    | contradiction
    | (obtain ⟨a, ha, e⟩ := map_ok h; rw [← e])
    | (cases h; rfl)))

theorem transition_sound {j : Json} (ho : TransitionOnce j) {t : Transition} (h : decodeTransition j = .ok t) : SaysTransition j t := by
  cases j with
  | null => cases h; exact .inl ⟨rfl, rfl⟩
  | obj fs =>
    obtain ⟨ho, _⟩ := ho fs rfl
    refine .inr ⟨fs, rfl, ?_, ?_⟩
    · refine field_says (D := decodeValue) (get := fun t : Transition => t.value) ?_ ?_ (ho _ (by simp)) h fun _ j x _ _ => (value_iff _ j x).1
      · other_fields decodeTransitionField
      · intro s k j s' h hn
        have hk := (isField_iff (by decide)).2 hn
        simp only [decodeTransitionField, hk, if_true] at h
        obtain ⟨a, ha, rfl⟩ := map_ok h; exact ha
    · refine field_says (D := decodeStr) (get := fun t : Transition => t.next) ?_ ?_ (ho _ (by simp)) h fun _ j x _ _ => (str_iff _ j x).1
      · other_fields decodeTransitionField
      · intro s k j s' h hn
        have hk := (isField_iff (by decide)).2 hn
        have e1 : isField c!"value" k = false := isField_ne (by decide) hk
        simp only [decodeTransitionField, e1, hk, if_true, Bool.false_eq_true, if_false] at h
        obtain ⟨a, ha, rfl⟩ := map_ok h; exact ha
  | _ => simp [decodeTransition, decodeStruct, throwErr] at h

theorem map_isOk {α β : Type} {r : Res α} {f : α → β} (h : ∃ x, r = .ok x) : ∃ y, r.map f = .ok y := by
  obtain ⟨x, rfl⟩ := h
  exact ⟨f x, rfl⟩

theorem transition_complete {j : Json} (ho : TransitionOnce j) {t : Transition} (h : SaysTransition j t) : ∃ t, decodeTransition j = .ok t := by
  rcases h with ⟨rfl, _⟩ | ⟨fs, rfl, hv, hn⟩
  · exact ⟨_, rfl⟩
  · obtain ⟨ho, _⟩ := ho fs rfl
    refine fields_complete (fun f hf s => ?_) _
    unfold decodeTransitionField
    split
    · rename_i hk
      have hk := (isField_iff (by decide)).1 hk
      rcases field_value hv (ho _ (by simp)) hf hk with ⟨e, _⟩ | hs
      · rw [e]; exact map_isOk ⟨_, rfl⟩
      · exact map_isOk ⟨_, (value_iff _ _ _).2 (.inr hs)⟩
    · split
      · rename_i hk
        have hk := (isField_iff (by decide)).1 hk
        rcases field_value hn (ho _ (by simp)) hf hk with ⟨e, _⟩ | hs
        · rw [e]; exact map_isOk ⟨_, rfl⟩
        · exact map_isOk ⟨_, (str_iff _ _ _).2 (.inr hs)⟩
      · exact ⟨_, rfl⟩

theorem list_sound {α : Type} {dec : Json → Res α} {Says : Json → α → Prop} {P : Json → Prop} (h : ∀ j x, P j → dec j = .ok x → Says j x)
    {j : Json} (hp : Elems P j) {xs : List α} (hd : decodeList dec j = .ok xs) : OrNull (SaysList Says) [] j xs := by
  cases j with
  | null => cases hd; exact .inl ⟨rfl, rfl⟩
  | arr js => exact .inr ⟨js, rfl, elems_sound (fun j hj x => h j x (hp js rfl j hj)) hd⟩
  | _ => simp [decodeList, throwErr] at hd

theorem list_complete {α : Type} {dec : Json → Res α} {Says : Json → α → Prop} {P : Json → Prop}
    (h : ∀ j x, P j → Says j x → ∃ x, dec j = .ok x) {j : Json} (hp : Elems P j) {xs : List α} (hs : OrNull (SaysList Says) [] j xs) :
    ∃ xs, decodeList dec j = .ok xs := by
  rcases hs with ⟨rfl, _⟩ | ⟨js, rfl, hs⟩
  · exact ⟨[], rfl⟩
  · refine elems_complete fun j hj => ?_
    obtain ⟨i, hi, rfl⟩ := List.mem_iff_getElem.1 hj
    exact h _ _ (hp js rfl _ hj) (hs.get (i := i) hi (by rw [← hs.length_eq]; exact hi))

theorem tset_sound {j : Json} (ho : TSetOnce j) {t : TSet} (h : decodeTSet j = .ok t) : SaysTSet j t := by
  cases j with
  | null => cases h; exact .inl ⟨rfl, rfl⟩
  | obj fs =>
    obtain ⟨ho, hin⟩ := ho fs rfl
    refine .inr ⟨fs, rfl, ?_, ?_⟩
    · refine field_says (D := decodeChannel) (get := fun t : TSet => t.channel) ?_ ?_ (ho _ (by simp)) h fun _ j x _ _ => (channel_iff _ j x).1
      · other_fields decodeTSetField
      · intro s k j s' h hn
        have hk := (isField_iff (by decide)).2 hn
        simp only [decodeTSetField, hk, if_true] at h
        obtain ⟨a, ha, rfl⟩ := map_ok h; exact ha
    · refine field_says (D := fun _ => decodeList decodeTransition) (get := fun t : TSet => t.transitions) ?_ ?_ (ho _ (by simp)) h
        fun key j x hm hk => list_sound (fun j x ho hd => transition_sound ho hd) (hin _ hm hk)
      · other_fields decodeTSetField
      · intro s k j s' h hn
        have hk := (isField_iff (by decide)).2 hn
        have e1 : isField c!"channel" k = false := isField_ne (by decide) hk
        simp only [decodeTSetField, e1, hk, if_true, Bool.false_eq_true, if_false] at h
        obtain ⟨a, ha, rfl⟩ := map_ok h; exact ha
  | _ => simp [decodeTSet, decodeStruct, throwErr] at h

theorem tset_complete {j : Json} (ho : TSetOnce j) {t : TSet} (h : SaysTSet j t) : ∃ t, decodeTSet j = .ok t := by
  rcases h with ⟨rfl, _⟩ | ⟨fs, rfl, hv, hn⟩
  · exact ⟨_, rfl⟩
  · obtain ⟨ho, hin⟩ := ho fs rfl
    refine fields_complete (fun f hf s => ?_) _
    unfold decodeTSetField
    split
    · rename_i hk
      have hk := (isField_iff (by decide)).1 hk
      rcases field_value hv (ho _ (by simp)) hf hk with ⟨e, _⟩ | hs
      · rw [e]; exact map_isOk ⟨_, rfl⟩
      · exact map_isOk ⟨_, (channel_iff _ _ _).2 (.inr hs)⟩
    · split
      · rename_i hk
        have hk := (isField_iff (by decide)).1 hk
        exact map_isOk (list_complete (fun j x ho hd => transition_complete ho hd) (hin _ hf hk) (field_value hn (ho _ (by simp)) hf hk))
      · exact ⟨_, rfl⟩

/-! ### verdicts, types and sets -/

theorem verdictLoop_sound {m : GoMap Str Str} (hwf : GoMap.WF m) : ∀ {acc v : Verdict}, (∀ k ∈ acc.keys, k ∉ m.keys) →
    decodeVerdictLoop acc m = .ok v → ∃ r, v = acc ++ r ∧ List.Forall₂ (fun x y => x.1 = y.1 ∧ OutcomeText x.2 y.2) m r := by
  induction m with
  | nil => intro acc v _ h; cases h; exact ⟨[], by simp, .nil⟩
  | cons x m ih =>
    intro acc v hk h
    obtain ⟨k, s⟩ := x
    rw [decodeVerdictLoop] at h
    cases ho : Outcome.parse s with
    | error e => rw [ho] at h; cases h
    | ok o =>
      rw [ho] at h
      simp only at h
      have hnd : k ∉ GoMap.keys m ∧ GoMap.WF m := List.nodup_cons.1 hwf
      have hka : k ∉ acc.keys := fun e => hk k e (by simp [GoMap.keys])
      have hset : GoMap.set acc k o = acc ++ [(k, o)] := by
        clear ih h hk
        induction acc with
        | nil => rfl
        | cons y acc ih =>
          obtain ⟨k', o'⟩ := y
          have h1 : k' ≠ k := fun e => hka (by simp [GoMap.keys, e])
          rw [GoMap.set, if_neg h1, ih (fun e => hka (by simp only [GoMap.keys, List.map_cons, List.mem_cons]; exact .inr e))]
          rfl
      rw [hset] at h
      obtain ⟨r, rfl, hr⟩ := ih hnd.2 (acc := acc ++ [(k, o)]) (by
        intro k' hk'
        simp only [GoMap.keys, List.map_append, List.map_cons, List.map_nil, List.mem_append, List.mem_singleton] at hk'
        rcases hk' with hk' | rfl
        · intro e
          exact hk k' hk' (by simp only [GoMap.keys, List.map_cons, List.mem_cons]; exact .inr e)
        · exact hnd.1) h
      exact ⟨(k, o) :: r, by simp, .cons ⟨rfl, (outcomeText_iff s o).1 ho⟩ hr⟩

theorem verdictLoop_complete {m : GoMap Str Str} (h : ∀ k s, (k, s) ∈ m → ∃ o, OutcomeText s o) : ∀ acc, ∃ v, decodeVerdictLoop acc m = .ok v := by
  induction m with
  | nil => intro acc; exact ⟨acc, rfl⟩
  | cons x m ih =>
    intro acc
    obtain ⟨k, s⟩ := x
    obtain ⟨o, ho⟩ := h k s (by simp)
    rw [decodeVerdictLoop, (outcomeText_iff s o).2 ho]
    exact ih (fun k s hks => h k s (by simp [hks])) _

theorem verdict_sound {j : Json} {v : Verdict} (h : decodeVerdict j = .ok v) : OrNull SaysVerdict [] j v := by
  unfold decodeVerdict at h
  cases hm : decodeMap (decodeStr []) j with
  | error e => rw [hm] at h; cases h
  | ok m =>
    rw [hm] at h
    simp only at h
    have hwf := decodeMap_wf hm
    obtain ⟨r, e, hr⟩ := verdictLoop_sound hwf (by simp [GoMap.keys]) h
    rw [List.nil_append] at e
    subst e
    cases j with
    | null => cases hm; cases hr; exact .inl ⟨rfl, rfl⟩
    | obj fs =>
      refine .inr ⟨m, map_sound (fun f _ x => (str_iff [] f.2 x).1) hm, ?_⟩
      have hkeys : v.map (·.1) = m.map (·.1) := by
        clear h hm hwf
        induction hr with
        | nil => rfl
        | cons h1 _ ih => rw [List.map_cons, List.map_cons, ih, h1.1]
      refine ⟨by unfold GoMap.WF; rw [hkeys]; exact hwf, hkeys, fun test o ho => ?_⟩
      obtain ⟨i, hi, e⟩ := List.mem_iff_getElem.1 ho
      have hi' : i < List.length m := by rw [hr.length_eq]; exact hi
      have := hr.get (i := i) hi' hi
      have hx : m[i] ∈ m := List.getElem_mem hi'
      simp only [List.get_eq_getElem, e] at this
      refine ⟨m[i].2, ?_, this.2⟩
      rw [← this.1]; exact hx
    | _ => simp [decodeMap, throwErr] at hm

theorem saysMap_same {α : Type} {Says : Json → α → Prop} {fs : List (Str × Json)} (hf : ∀ j x y, Says j x → Says j y → x = y)
    {m m' : GoMap Str α} (h : SaysMap Says (.obj fs) m) (h' : SaysMap Says (.obj fs) m') {k : Str} {x : α} (hx : (k, x) ∈ m) : (k, x) ∈ m' := by
  obtain ⟨_, e, _, _, _, hl⟩ := h
  cases e
  obtain ⟨_, e, _, _, hin, hl'⟩ := h'
  cases e
  obtain ⟨j, hj, hs⟩ := hl k x hx
  obtain ⟨pre, key, post, hfs, hk, hp⟩ := hj
  obtain ⟨y, hy⟩ := hin (key, j) (by rw [hfs]; simp)
  simp only at hy hk
  subst hk
  obtain ⟨j', hj', hs'⟩ := hl' key y hy
  have := last_unique hj' ⟨pre, key, post, hfs, rfl, hp⟩
  subst this
  rw [hf _ _ _ hs hs']; exact hy

theorem verdict_complete {j : Json} {v : Verdict} (h : OrNull SaysVerdict [] j v) : ∃ v, decodeVerdict j = .ok v := by
  rcases h with ⟨rfl, _⟩ | ⟨m, hm, hwf, hkeys, ho⟩
  · exact ⟨[], rfl⟩
  · have hm0 := hm
    obtain ⟨fs, rfl, hwm, hall, _, _⟩ := hm
    obtain ⟨m', hm'⟩ := map_complete (dec := decodeStr []) (fs := fs) fun f hf => by
      obtain ⟨x, hx⟩ := hall f hf
      exact ⟨x, (str_iff _ _ _).2 hx⟩
    have hs' := map_sound (fun f _ x => (str_iff [] f.2 x).1) hm'
    unfold decodeVerdict
    rw [hm']
    refine verdictLoop_complete (fun k s hks => ?_) _
    have hks := saysMap_same (fun j x y hx hy => by
      have hx := (str_iff [] j x).2 hx
      rw [(str_iff [] j y).2 hy] at hx
      cases hx; rfl) hs' hm0 hks
    have : k ∈ v.map (·.1) := by rw [hkeys]; exact List.mem_map.2 ⟨_, hks, rfl⟩
    obtain ⟨⟨k', o⟩, hko, rfl⟩ := List.mem_map.1 this
    obtain ⟨s', hs1, hs2⟩ := ho _ o hko
    have e1 := (GoMap.get?_eq_some_iff hwm).2 hs1
    rw [(GoMap.get?_eq_some_iff hwm).2 hks] at e1
    cases e1
    exact ⟨o, hs2⟩

theorem types_sound {j : Json} {m : TypeMap} (h : decodeTypes j = .ok m) : OrNull SaysTypes [] j m := by
  cases j with
  | null => cases h; exact .inl ⟨rfl, rfl⟩
  | obj fs => exact .inr (map_sound (fun f _ x => (type_iff f.2 x).1) h)
  | _ => simp [decodeTypes, decodeMap, throwErr] at h

theorem types_complete {j : Json} {m : TypeMap} (h : OrNull SaysTypes [] j m) : ∃ m, decodeTypes j = .ok m := by
  rcases h with ⟨rfl, _⟩ | ⟨fs, rfl, _, hall, _⟩
  · exact ⟨[], rfl⟩
  · refine map_complete fun f hf => ?_
    obtain ⟨x, hx⟩ := hall f hf
    exact ⟨x, (type_iff _ _).2 hx⟩

theorem add_spec (vs : List Str) : ∀ s : GoSet Str, GoMap.WF s → (∀ x ∈ s, x.2 = true) →
    GoMap.WF (GoSet.add s vs) ∧ ∀ x, (x, true) ∈ GoSet.add s vs ↔ (x, true) ∈ s ∨ x ∈ vs := by
  induction vs with
  | nil => intro s hs _; exact ⟨hs, fun x => by simp [GoSet.add]⟩
  | cons v vs ih =>
    intro s hs ht
    have hw := GoMap.wf_set hs v true
    obtain ⟨h1, h2⟩ := ih (GoMap.set s v true) hw (by
      intro x hx
      rcases mem_set hx with hx | rfl
      · exact ht x hx
      · rfl)
    refine ⟨h1, fun x => ?_⟩
    show (x, true) ∈ GoSet.add (GoMap.set s v true) vs ↔ _
    rw [h2 x, ← GoMap.get?_eq_some_iff hw, GoMap.get?_set, List.mem_cons]
    by_cases e : v = x
    · subst e; simp
    · rw [if_neg e, GoMap.get?_eq_some_iff hs]
      simp [Ne.symm e]

theorem set_sound {j : Json} {s : GoSet Str} (h : decodeSet j = .ok s) : OrNull SaysSet [] j s := by
  unfold decodeSet at h
  obtain ⟨xs, hx, rfl⟩ := map_ok h
  obtain ⟨h1, h2⟩ := add_spec xs [] GoMap.wf_nil (by simp)
  rcases (strs_iff j xs).1 hx with ⟨rfl, rfl⟩ | hx
  · exact .inl ⟨rfl, rfl⟩
  · exact .inr ⟨xs, hx, h1, fun x => by simpa using h2 x⟩

theorem set_complete {j : Json} {s : GoSet Str} (h : OrNull SaysSet [] j s) : ∃ s, decodeSet j = .ok s := by
  rcases h with ⟨rfl, _⟩ | ⟨xs, hx, _⟩
  · exact ⟨[], rfl⟩
  · exact map_isOk ⟨xs, (strs_iff j xs).2 (.inr hx)⟩

/-! ### states, machines and suites of machines -/

theorem state_sound {j : Json} (ho : StateOnce j) {t : State} (h : decodeState j = .ok t) : SaysState j t := by
  cases j with
  | null => cases h; exact .inl ⟨rfl, rfl⟩
  | obj fs =>
    obtain ⟨ho, hin⟩ := ho fs rfl
    refine .inr ⟨fs, rfl, ?_, ?_, ?_⟩
    · refine field_says (D := decodeStr) (get := fun t : State => t.id) ?_ ?_ (ho _ (by simp)) h fun _ j x _ _ => (str_iff _ j x).1
      · other_fields decodeStateField
      · intro s k j s' h hn
        have hk := (isField_iff (by decide)).2 hn
        simp only [decodeStateField, hk, if_true] at h
        obtain ⟨a, ha, rfl⟩ := map_ok h; exact ha
    · refine field_says (D := fun _ => decodeList decodeTSet) (get := fun t : State => t.transitionSets) ?_ ?_ (ho _ (by simp)) h
        fun key j x hm hk => list_sound (fun j x ho hd => tset_sound ho hd) (hin _ hm hk)
      · other_fields decodeStateField
      · intro s k j s' h hn
        have hk := (isField_iff (by decide)).2 hn
        have e1 : isField c!"id" k = false := isField_ne (by decide) hk
        simp only [decodeStateField, e1, hk, if_true, Bool.false_eq_true, if_false] at h
        obtain ⟨a, ha, rfl⟩ := map_ok h; exact ha
    · refine field_says (D := fun _ => decodeVerdict) (get := fun t : State => t.verdict) ?_ ?_ (ho _ (by simp)) h
        fun key j x hm hk => verdict_sound
      · other_fields decodeStateField
      · intro s k j s' h hn
        have hk := (isField_iff (by decide)).2 hn
        have e1 : isField c!"id" k = false := isField_ne (by decide) hk
        have e2 : isField c!"transitionSets" k = false := isField_ne (by decide) hk
        simp only [decodeStateField, e1, e2, hk, if_true, Bool.false_eq_true, if_false] at h
        obtain ⟨a, ha, rfl⟩ := map_ok h; exact ha
  | _ => simp [decodeState, throwErr] at h

theorem state_complete {j : Json} (ho : StateOnce j) {t : State} (h : SaysState j t) : ∃ t, decodeState j = .ok t := by
  rcases h with ⟨rfl, _⟩ | ⟨fs, rfl, hv, hn, hw⟩
  · exact ⟨_, rfl⟩
  · obtain ⟨ho, hin⟩ := ho fs rfl
    refine fields_complete (fun f hf s => ?_) _
    unfold decodeStateField
    split
    · rename_i hk
      have hk := (isField_iff (by decide)).1 hk
      rcases field_value hv (ho _ (by simp)) hf hk with ⟨e, _⟩ | hs
      · rw [e]; exact map_isOk ⟨_, rfl⟩
      · exact map_isOk ⟨_, (str_iff _ _ _).2 (.inr hs)⟩
    · split
      · rename_i hk
        have hk := (isField_iff (by decide)).1 hk
        exact map_isOk (list_complete (fun j x ho hd => tset_complete ho hd) (hin _ hf hk) (field_value hn (ho _ (by simp)) hf hk))
      · split
        · rename_i hk
          have hk := (isField_iff (by decide)).1 hk
          exact map_isOk (verdict_complete (field_value hw (ho _ (by simp)) hf hk))
        · exact ⟨_, rfl⟩

theorem stm_sound {j : Json} (ho : StmOnce j) {t : Stm} (h : decodeStm j = .ok t) : SaysStm j t := by
  cases j with
  | null => cases h; exact .inl ⟨rfl, rfl⟩
  | obj fs =>
    obtain ⟨ho, hin⟩ := ho fs rfl
    refine .inr ⟨fs, rfl, ?_, ?_, ?_⟩
    · refine field_says (D := fun _ => decodeList decodeState) (get := fun t : Stm => t.states) ?_ ?_ (ho _ (by simp)) h
        fun key j x hm hk => list_sound (fun j x ho hd => state_sound ho hd) (hin _ hm hk)
      · other_fields decodeStmField
      · intro s k j s' h hn
        have hk := (isField_iff (by decide)).2 hn
        simp only [decodeStmField, hk, if_true] at h
        obtain ⟨a, ha, rfl⟩ := map_ok h; exact ha
    · refine field_says (D := fun _ => decodeTypes) (get := fun t : Stm => t.types) ?_ ?_ (ho _ (by simp)) h
        fun key j x hm hk => types_sound
      · other_fields decodeStmField
      · intro s k j s' h hn
        have hk := (isField_iff (by decide)).2 hn
        have e1 : isField c!"states" k = false := isField_ne (by decide) hk
        simp only [decodeStmField, e1, hk, if_true, Bool.false_eq_true, if_false] at h
        obtain ⟨a, ha, rfl⟩ := map_ok h; exact ha
    · refine field_says (D := fun _ => decodeSet) (get := fun t : Stm => t.tests) ?_ ?_ (ho _ (by simp)) h
        fun key j x hm hk => set_sound
      · other_fields decodeStmField
      · intro s k j s' h hn
        have hk := (isField_iff (by decide)).2 hn
        have e1 : isField c!"states" k = false := isField_ne (by decide) hk
        have e2 : isField c!"types" k = false := isField_ne (by decide) hk
        simp only [decodeStmField, e1, e2, hk, if_true, Bool.false_eq_true, if_false] at h
        obtain ⟨a, ha, rfl⟩ := map_ok h; exact ha
  | _ => simp [decodeStm, throwErr] at h

theorem stm_complete {j : Json} (ho : StmOnce j) {t : Stm} (h : SaysStm j t) : ∃ t, decodeStm j = .ok t := by
  rcases h with ⟨rfl, _⟩ | ⟨fs, rfl, hv, hn, hw⟩
  · exact ⟨_, rfl⟩
  · obtain ⟨ho, hin⟩ := ho fs rfl
    refine fields_complete (fun f hf s => ?_) _
    unfold decodeStmField
    split
    · rename_i hk
      have hk := (isField_iff (by decide)).1 hk
      exact map_isOk (list_complete (fun j x ho hd => state_complete ho hd) (hin _ hf hk) (field_value hv (ho _ (by simp)) hf hk))
    · split
      · rename_i hk
        have hk := (isField_iff (by decide)).1 hk
        exact map_isOk (types_complete (field_value hn (ho _ (by simp)) hf hk))
      · split
        · rename_i hk
          have hk := (isField_iff (by decide)).1 hk
          exact map_isOk (set_complete (field_value hw (ho _ (by simp)) hf hk))
        · exact ⟨_, rfl⟩

theorem stmSuite_sound {j : Json} (ho : StmSuiteOnce j) {t : StmSuite} (h : decodeStmSuite j = .ok t) : SaysStmSuite j t := by
  cases j with
  | null => cases h; exact .inl ⟨rfl, rfl⟩
  | obj fs =>
    obtain ⟨ho, hin⟩ := ho fs rfl
    refine .inr ⟨fs, rfl, ?_, ?_⟩
    · refine field_says (D := fun _ => decodeTypes) (get := fun t : StmSuite => t.types) ?_ ?_ (ho _ (by simp)) h
        fun key j x hm hk => types_sound
      · other_fields decodeStmSuiteField
      · intro s k j s' h hn
        have hk := (isField_iff (by decide)).2 hn
        simp only [decodeStmSuiteField, hk, if_true] at h
        obtain ⟨a, ha, rfl⟩ := map_ok h; exact ha
    · refine field_says (D := fun _ => decodeMap decodeStm) (get := fun t : StmSuite => t.tests) ?_ ?_ (ho _ (by simp)) h ?_
      · other_fields decodeStmSuiteField
      · intro s k j s' h hn
        have hk := (isField_iff (by decide)).2 hn
        have e1 : isField c!"types" k = false := isField_ne (by decide) hk
        simp only [decodeStmSuiteField, e1, hk, if_true, Bool.false_eq_true, if_false] at h
        obtain ⟨a, ha, rfl⟩ := map_ok h; exact ha
      · intro key j x hm hk hd
        cases j with
        | null => cases hd; exact .inl ⟨rfl, rfl⟩
        | obj gs => exact .inr (map_sound (fun f hf x hd => stm_sound (hin _ hm hk gs rfl f hf) hd) hd)
        | _ => simp [decodeMap, throwErr] at hd
  | _ => simp [decodeStmSuite, decodeStruct, throwErr] at h

theorem stmSuite_complete {j : Json} (ho : StmSuiteOnce j) {t : StmSuite} (h : SaysStmSuite j t) : ∃ t, decodeStmSuite j = .ok t := by
  rcases h with ⟨rfl, _⟩ | ⟨fs, rfl, hv, hn⟩
  · exact ⟨_, rfl⟩
  · obtain ⟨ho, hin⟩ := ho fs rfl
    refine fields_complete (fun f hf s => ?_) _
    unfold decodeStmSuiteField
    split
    · rename_i hk
      have hk := (isField_iff (by decide)).1 hk
      exact map_isOk (types_complete (field_value hv (ho _ (by simp)) hf hk))
    · split
      · rename_i hk
        have hk := (isField_iff (by decide)).1 hk
        refine map_isOk ?_
        rcases field_value hn (ho _ (by simp)) hf hk with ⟨e, _⟩ | ⟨gs, e, _, hall, _⟩
        · rw [e]; exact ⟨[], rfl⟩
        · rw [e]
          refine map_complete fun g hg => ?_
          obtain ⟨x, hx⟩ := hall g hg
          exact stm_complete (hin _ hf hk gs e g hg) hx
      · exact ⟨_, rfl⟩

/-! ### nodes and test suites -/

theorem field_unique {α : Type} {name : Str} {Says : Json → α → Prop} {dflt : α} {fs : List (Str × Json)} {x y : α}
    (hu : ∀ j x y, OrNull Says dflt j x → OrNull Says dflt j y → x = y) (hx : Field name Says dflt fs x) (hy : Field name Says dflt fs y) :
    x = y := by
  rcases hx with ⟨h1, rfl⟩ | ⟨j, hl, hx⟩
  · rcases hy with ⟨_, rfl⟩ | ⟨j, ⟨pre, key, post, rfl, hk, _⟩, _⟩
    · rfl
    · exact absurd hk (h1 (key, j) (by simp))
  · rcases hy with ⟨h1, rfl⟩ | ⟨j', hl', hy⟩
    · obtain ⟨pre, key, post, rfl, hk, _⟩ := hl
      exact absurd hk (h1 (key, j) (by simp))
    · rw [last_unique hl' hl] at hy
      exact hu _ _ _ hx hy

theorem unique_of_iff {α : Type} {r : Res α} {P : α → Prop} (h : ∀ x, r = .ok x ↔ P x) {x y : α} (hx : P x) (hy : P y) : x = y := by
  have hx := (h x).2 hx
  rw [(h y).2 hy] at hx
  cases hx; rfl

theorem nodeFields_eq (fs : List (Str × Json)) : ∀ n, decodeNodeFields n fs = decodeFields (fun n k j => decodeNodeField n (k, j)) n fs := by
  induction fs with
  | nil => intro n; rw [decodeNodeFields, decodeFields]
  | cons f fs ih =>
    intro n
    obtain ⟨k, j⟩ := f
    rw [decodeNodeFields, decodeFields]
    cases decodeNodeField n (k, j) with
    | error e => rfl
    | ok n' => exact ih n'

theorem nodes_iff {js : List Json} (h : ∀ j ∈ js, ∀ n, decodeNode j = .ok n ↔ SaysNode j n) :
    ∀ ns, decodeNodes js = .ok ns ↔ SaysNodes js ns := by
  induction js with
  | nil =>
    intro ns
    rw [decodeNodes]
    constructor
    · intro e; cases e; exact .nil
    · intro e; cases e; rfl
  | cons j js ih =>
    have ih := ih fun j hj => h j (by simp [hj])
    have hj := h j (by simp)
    intro ns
    rw [decodeNodes]
    constructor
    · intro e
      cases h1 : decodeNode j with
      | error e' => rw [h1] at e; cases e
      | ok n =>
        rw [h1] at e
        simp only at e
        cases h2 : decodeNodes js with
        | error e' => rw [h2] at e; cases e
        | ok ns' =>
          rw [h2] at e
          cases e
          exact .cons ((hj n).1 h1) ((ih ns').1 h2)
    · intro e
      cases e with
      | cons h1 h2 => rw [(hj _).2 h1]; simp only; rw [(ih _).2 h2]

theorem node_sound {fs : List (Str × Json)} (ho : ∀ name ∈ [c!"id", c!"tests", c!"outcome", c!"event", c!"next"], Once fs name)
    (ih : ∀ key js, (key, .arr js) ∈ fs → Named c!"next" key → ∀ j ∈ js, ∀ n, decodeNode j = .ok n ↔ SaysNode j n) {n : Node}
    (h : decodeNode (.obj fs) = .ok n) : SaysNode (.obj fs) n := by
  rw [decodeNode, nodeFields_eq] at h
  have f1 : Field c!"id" SaysStr [] fs n.id := by
    refine field_says (D := decodeStr) (get := fun n : Node => n.id) ?_ ?_ (ho _ (by simp)) h fun _ j x _ _ => (str_iff _ j x).1
    · other_fields decodeNodeField
    · intro s k j s' h hn
      have hk := (isField_iff (by decide)).2 hn
      simp only [decodeNodeField, hk, if_true] at h
      obtain ⟨a, ha, rfl⟩ := map_ok h; exact ha
  have f2 : Field c!"tests" SaysStrs [] fs n.tests := by
    refine field_says (D := fun _ => decodeList (decodeStr [])) (get := fun n : Node => n.tests) ?_ ?_ (ho _ (by simp)) h
      fun _ j x _ _ => (strs_iff j x).1
    · other_fields decodeNodeField
    · intro s k j s' h hn
      have hk := (isField_iff (by decide)).2 hn
      have e1 : isField c!"id" k = false := isField_ne (by decide) hk
      simp only [decodeNodeField, e1, hk, if_true, Bool.false_eq_true, if_false] at h
      obtain ⟨a, ha, rfl⟩ := map_ok h; exact ha
  have f3 : Field c!"outcome" SaysOutcome .unset fs n.outcome := by
    refine field_says (D := decodeOutcome) (get := fun n : Node => n.outcome) ?_ ?_ (ho _ (by simp)) h fun _ j x _ _ => (outcome_iff _ j x).1
    · other_fields decodeNodeField
    · intro s k j s' h hn
      have hk := (isField_iff (by decide)).2 hn
      have e1 : isField c!"id" k = false := isField_ne (by decide) hk
      have e2 : isField c!"tests" k = false := isField_ne (by decide) hk
      simp only [decodeNodeField, e1, e2, hk, if_true, Bool.false_eq_true, if_false] at h
      obtain ⟨a, ha, rfl⟩ := map_ok h; exact ha
  have f4 : Field c!"event" SaysEvent none fs n.event := by
    refine field_says (D := decodeEvent) (get := fun n : Node => n.event) ?_ ?_ (ho _ (by simp)) h fun _ j x _ _ => (event_iff j x).1
    · other_fields decodeNodeField
    · intro s k j s' h hn
      have hk := (isField_iff (by decide)).2 hn
      have e1 : isField c!"id" k = false := isField_ne (by decide) hk
      have e2 : isField c!"tests" k = false := isField_ne (by decide) hk
      have e3 : isField c!"outcome" k = false := isField_ne (by decide) hk
      simp only [decodeNodeField, e1, e2, e3, hk, if_true, Bool.false_eq_true, if_false] at h
      obtain ⟨a, ha, rfl⟩ := map_ok h; exact ha
  have f5 := field_sound (D := fun _ => decodeNodeList) (get := fun n : Node => n.next) (name := c!"next") (by other_fields decodeNodeField) (by
      intro s k j s' h hn
      have hk := (isField_iff (by decide)).2 hn
      have e1 : isField c!"id" k = false := isField_ne (by decide) hk
      have e2 : isField c!"tests" k = false := isField_ne (by decide) hk
      have e3 : isField c!"outcome" k = false := isField_ne (by decide) hk
      have e4 : isField c!"event" k = false := isField_ne (by decide) hk
      simp only [decodeNodeField, e1, e2, e3, e4, hk, if_true, Bool.false_eq_true, if_false] at h
      obtain ⟨a, ha, rfl⟩ := map_ok h; exact ha) (ho _ (by simp)) h
  obtain ⟨id, tests, outcome, event, next⟩ := n
  rcases f5 with ⟨h1, h2⟩ | ⟨j, hl, hj⟩
  · have h2 : next = [] := h2
    subst h2
    exact .obj f1 f2 f3 f4 (.inl ⟨h1, rfl⟩) .nil
  · cases j with
    | null =>
      have hj : next = [] := by
        simp only [decodeNodeList, Except.ok.injEq] at hj; exact hj.symm
      subst hj
      exact .obj f1 f2 f3 f4 (.inr ⟨_, hl, .inl ⟨rfl, rfl⟩⟩) .nil
    | arr js =>
      refine .obj f1 f2 f3 f4 (.inr ⟨_, hl, .inr rfl⟩) ?_
      obtain ⟨pre, key, post, rfl, hk, _⟩ := hl
      rw [decodeNodeList] at hj
      exact (nodes_iff (ih key js (by simp) hk) next).1 hj
    | _ => simp [decodeNodeList, throwErr] at hj

theorem next_unique {j : Json} {x y : List Json} (hx : OrNull (fun j js => j = .arr js) [] j x) (hy : OrNull (fun j js => j = .arr js) [] j y) :
    x = y := by
  rcases hx with ⟨rfl, rfl⟩ | rfl <;> rcases hy with ⟨h, rfl⟩ | h <;> first | rfl | (cases h; try rfl)

theorem node_complete {fs : List (Str × Json)} (ho : ∀ name ∈ [c!"id", c!"tests", c!"outcome", c!"event", c!"next"], Once fs name)
    (ih : ∀ key js, (key, .arr js) ∈ fs → Named c!"next" key → ∀ j ∈ js, ∀ n, decodeNode j = .ok n ↔ SaysNode j n) {n : Node}
    (h : SaysNode (.obj fs) n) : decodeNode (.obj fs) = .ok n := by
  have hn := h
  cases h with
  | @obj _ id tests outcome event next js h1 h2 h3 h4 h5 h6 =>
  have hjs : ∀ ns, decodeNodes js = .ok ns ↔ SaysNodes js ns := by
    refine nodes_iff fun j hj => ?_
    rcases h5 with ⟨_, rfl⟩ | ⟨j', hl, ⟨_, rfl⟩ | rfl⟩
    · cases hj
    · cases hj
    · obtain ⟨pre, key, post, rfl, hk, _⟩ := hl
      exact ih key js (by simp) hk j hj
  have hex : ∃ n', decodeNode (.obj fs) = .ok n' := by
    rw [decodeNode]
    simp only [nodeFields_eq]
    refine fields_complete (fun f hf s => ?_) _
    obtain ⟨k, j⟩ := f
    simp only [decodeNodeField]
    split
    · rename_i hk
      have hk := (isField_iff (by decide)).1 hk
      rcases field_value h1 (ho _ (by simp)) hf hk with ⟨e, _⟩ | hs
      · rw [e]; exact map_isOk ⟨_, rfl⟩
      · exact map_isOk ⟨_, (str_iff _ _ _).2 (.inr hs)⟩
    · split
      · rename_i hk
        have hk := (isField_iff (by decide)).1 hk
        exact map_isOk ⟨_, (strs_iff _ _).2 (field_value h2 (ho _ (by simp)) hf hk)⟩
      · split
        · rename_i hk
          have hk := (isField_iff (by decide)).1 hk
          rcases field_value h3 (ho _ (by simp)) hf hk with ⟨e, _⟩ | hs
          · rw [e]; exact map_isOk ⟨_, rfl⟩
          · exact map_isOk ⟨_, (outcome_iff _ _ _).2 (.inr hs)⟩
        · split
          · rename_i hk
            have hk := (isField_iff (by decide)).1 hk
            rcases field_value h4 (ho _ (by simp)) hf hk with ⟨e, _⟩ | ⟨t, e, rfl, rfl, ht⟩
            · rw [e]; exact map_isOk ⟨_, rfl⟩
            · refine map_isOk ?_
              have hp := (eventText_iff t e).2 ht
              unfold decodeEvent
              have hu : ∀ old, ∃ e', Event.unmarshalText old t = (e', none) := by
                intro old
                rw [event_parse_ok_iff] at hp
                unfold Event.unmarshalText
                rcases hp with ⟨hc, _⟩ | ⟨r, hc, hv⟩
                · rw [(channel_unmarshal_ok_iff old.channel t _ _).2 hc]
                  exact ⟨_, rfl⟩
                · rw [(channel_unmarshal_ok_iff old.channel t _ _).2 hc]
                  simp only [hv]
                  exact ⟨_, rfl⟩
              obtain ⟨e', he'⟩ := hu (s.event.getD Event.zero)
              simp only [he']
              exact ⟨_, rfl⟩
          · split
            · rename_i hk
              have hk := (isField_iff (by decide)).1 hk
              refine map_isOk ?_
              rcases field_value h5 (ho _ (by simp)) hf hk with ⟨e, _⟩ | e
              · exact ⟨[], by rw [e, decodeNodeList]⟩
              · exact ⟨next, by rw [e, decodeNodeList]; exact (hjs next).2 h6⟩
            · exact ⟨_, rfl⟩
  obtain ⟨n', hn'⟩ := hex
  rw [hn']
  cases node_sound ho ih hn' with
  | @obj _ id' tests' outcome' event' next' js' g1 g2 g3 g4 g5 g6 =>
  have e1 := field_unique (fun j x y hx hy => unique_of_iff (str_iff [] j) hx hy) g1 h1
  have e2 := field_unique (fun j x y hx hy => unique_of_iff (strs_iff j) hx hy) g2 h2
  have e3 := field_unique (fun j x y hx hy => unique_of_iff (outcome_iff _ j) hx hy) g3 h3
  have e4 := field_unique (fun j x y hx hy => unique_of_iff (event_iff j) hx hy) g4 h4
  have e5 := field_unique (fun j x y hx hy => next_unique hx hy) g5 h5
  subst e1 e2 e3 e4 e5
  rw [unique_of_iff hjs g6 h6]

theorem node_iff {j : Json} (ho : NodeOnce j) : ∀ n, decodeNode j = .ok n ↔ SaysNode j n := by
  induction ho with
  | @other j h =>
    intro n
    cases j with
    | null =>
      rw [decodeNode]
      constructor
      · intro e; cases e; exact .null
      · intro e; cases e; rfl
    | obj fs => exact absurd rfl (h fs)
    | _ =>
      constructor
      · intro e; simp [decodeNode, throwErr] at e
      · intro e; cases e
  | obj h _ ih => exact fun n => ⟨node_sound h ih, node_complete h ih⟩

theorem test_iff {j : Json} (ho : NodeOnce j) (t : Option Node) : decodeNodePtr j = .ok t ↔ SaysTest j t := by
  unfold SaysTest
  have hi := node_iff ho
  cases j with
  | null => simp [decodeNodePtr, eq_comm]
  | _ =>
    simp only [decodeNodePtr, reduceCtorEq, false_and, ne_eq, not_false_eq_true, true_and, false_or]
    constructor
    · intro h
      obtain ⟨n, hn, rfl⟩ := map_ok h
      exact ⟨n, rfl, (hi n).1 hn⟩
    · rintro ⟨n, rfl, hn⟩
      rw [(hi n).2 hn]; rfl

theorem suite_sound {j : Json} (ho : SuiteOnce j) {s : Validate.Suite} (h : decodeSuite j = .ok s) : SaysSuite j s := by
  cases j with
  | null => cases h; exact .inl ⟨rfl, rfl⟩
  | obj fs => exact .inr (map_sound (fun f hf x => (test_iff (ho fs rfl f hf) x).1) h)
  | _ => simp [decodeSuite, decodeMap, throwErr] at h

theorem suite_complete {j : Json} (ho : SuiteOnce j) {s : Validate.Suite} (h : SaysSuite j s) : ∃ s, decodeSuite j = .ok s := by
  rcases h with ⟨rfl, _⟩ | ⟨fs, rfl, _, hall, _⟩
  · exact ⟨[], rfl⟩
  · refine map_complete fun f hf => ?_
    obtain ⟨x, hx⟩ := hall f hf
    exact ⟨x, (test_iff (ho fs rfl f hf) x).2 hx⟩

end Rtcg.JsonForm
