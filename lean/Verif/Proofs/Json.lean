import Verif.Spec.Json
import Verif.Props.Tree
import Verif.Props.Lang

/-
Saving and loading: slices, maps, structs, nodes, machines.
-/

namespace Rtcg

open Rtcg.Spec

namespace Json

/-! ### slices -/

theorem encodeElems_ok_iff {α : Type} {enc : α → Res Json} {l : List α} {js : List Json} :
    encodeElems enc l = .ok js ↔ List.Forall₂ (fun a j => enc a = .ok j) l js := by
  induction l generalizing js with
  | nil => cases js <;> simp [encodeElems]
  | cons a l ih =>
    simp only [encodeElems]
    cases ha : enc a with
    | error f => constructor
                 · intro h; simp at h
                 · intro h; cases h with | cons h _ => rw [ha] at h; simp at h
    | ok j =>
      cases hl : encodeElems enc l with
      | error f =>
        constructor
        · intro h; simp at h
        · intro h; cases h with | cons _ h => rw [← ih, hl] at h; simp at h
      | ok js' =>
        simp only [Except.ok.injEq]
        constructor
        · rintro rfl; exact .cons ha (ih.1 hl)
        · intro h
          cases h with
          | cons h1 h2 =>
            rw [ha] at h1; rw [← ih, hl] at h2
            simp only [Except.ok.injEq] at h1 h2
            rw [h1, h2]

theorem decodeElems_ok_iff {α : Type} {dec : Json → Res α} {js : List Json} {l : List α} :
    decodeElems dec js = .ok l ↔ List.Forall₂ (fun j a => dec j = .ok a) js l := by
  induction js generalizing l with
  | nil => cases l <;> simp [decodeElems]
  | cons a js ih =>
    simp only [decodeElems]
    cases ha : dec a with
    | error f => constructor
                 · intro h; simp at h
                 · intro h; cases h with | cons h _ => rw [ha] at h; simp at h
    | ok j =>
      cases hl : decodeElems dec js with
      | error f =>
        constructor
        · intro h; simp at h
        · intro h; cases h with | cons _ h => rw [← ih, hl] at h; simp at h
      | ok js' =>
        simp only [Except.ok.injEq]
        constructor
        · rintro rfl; exact .cons ha (ih.1 hl)
        · intro h
          cases h with
          | cons h1 h2 =>
            rw [ha] at h1; rw [← ih, hl] at h2
            simp only [Except.ok.injEq] at h1 h2
            rw [h1, h2]

/-- A value survives encoding and decoding up to `R`. -/
def Survives {α : Type} (enc : α → Res Json) (dec : Json → Res α) (R : α → α → Prop) (a : α) : Prop :=
  ∃ j a', enc a = .ok j ∧ dec j = .ok a' ∧ R a a'

theorem elems_survive_iff {α : Type} {enc : α → Res Json} {dec : Json → Res α} {R : α → α → Prop} {l : List α} :
    (∃ js l', encodeElems enc l = .ok js ∧ decodeElems dec js = .ok l' ∧ List.Forall₂ R l l') ↔
      ∀ a ∈ l, Survives enc dec R a := by
  simp only [encodeElems_ok_iff, decodeElems_ok_iff]
  induction l with
  | nil =>
    constructor
    · intro _ a ha; simp at ha
    · intro _; exact ⟨[], [], .nil, .nil, .nil⟩
  | cons a l ih =>
    constructor
    · rintro ⟨_, _, h1, h2, h3⟩
      cases h1 with
      | cons h1 h1' =>
        cases h2 with
        | cons h2 h2' =>
          cases h3 with
          | cons h3 h3' =>
            intro b hb
            rcases List.mem_cons.1 hb with rfl | hb
            · exact ⟨_, _, h1, h2, h3⟩
            · exact ih.1 ⟨_, _, h1', h2', h3'⟩ b hb
    · intro h
      obtain ⟨j, a', h1, h2, h3⟩ := h a (by simp)
      obtain ⟨js, l', g1, g2, g3⟩ := ih.2 (fun b hb => h b (by simp [hb]))
      exact ⟨_, _, .cons h1 g1, .cons h2 g2, .cons h3 g3⟩

/-! ### maps -/

theorem encodeEntries_ok_iff {α : Type} {enc : α → Res Json} {m : GoMap Str α} {fs : List (Str × Json)} :
    encodeEntries enc m = .ok fs ↔ List.Forall₂ (fun x y => x.1 = y.1 ∧ enc x.2 = .ok y.2) m fs := by
  induction m generalizing fs with
  | nil => cases fs <;> simp [encodeEntries]
  | cons x m ih =>
    obtain ⟨k, a⟩ := x
    simp only [encodeEntries]
    cases ha : enc a with
    | error f => constructor
                 · intro h; simp at h
                 · intro h; cases h with | cons h _ => rw [ha] at h; simp at h
    | ok j =>
      cases hl : encodeEntries enc m with
      | error f =>
        constructor
        · intro h; simp at h
        · intro h; cases h with | cons _ h => rw [← ih, hl] at h; simp at h
      | ok fs' =>
        simp only [Except.ok.injEq]
        constructor
        · rintro rfl; exact .cons ⟨rfl, ha⟩ (ih.1 hl)
        · intro h
          cases h with
          | @cons _ y _ l h1 h2 =>
            obtain ⟨k', j'⟩ := y
            rw [ha] at h1; rw [← ih, hl] at h2
            simp only [Except.ok.injEq] at h1 h2
            rw [h1.1, h1.2, h2]

theorem set_of_not_mem {α : Type} {m : GoMap Str α} {k : Str} {a : α} (h : k ∉ m.keys) : GoMap.set m k a = m ++ [(k, a)] := by
  induction m with
  | nil => rfl
  | cons x m ih =>
    obtain ⟨k', a'⟩ := x
    simp only [GoMap.keys, List.map_cons, List.mem_cons, not_or] at h
    simp only [GoMap.set]
    rw [if_neg (Ne.symm h.1), ih h.2]; rfl

theorem decodeEntries_ok_iff {α : Type} {dec : Json → Res α} {acc : GoMap Str α} {fs : List (Str × Json)} {m : GoMap Str α}
    (hn : (acc.keys ++ fs.map (·.1)).Nodup) :
    decodeEntries dec acc fs = .ok m ↔
      ∃ r, m = acc ++ r ∧ List.Forall₂ (fun x y => x.1 = y.1 ∧ dec x.2 = .ok y.2) fs r := by
  induction fs generalizing acc with
  | nil =>
    simp only [decodeEntries, Except.ok.injEq, List.forall₂_nil_left_iff]
    constructor
    · rintro rfl; exact ⟨[], by simp, rfl⟩
    · rintro ⟨r, h, rfl⟩; simpa using h.symm
  | cons x fs ih =>
    obtain ⟨k, j⟩ := x
    simp only [decodeEntries]
    have hk : k ∉ acc.keys := by
      intro h
      rw [List.nodup_append] at hn
      exact hn.2.2 k h k (by simp) rfl
    cases hj : dec j with
    | error f =>
      constructor
      · intro h; simp at h
      · rintro ⟨r, _, h⟩; cases h with | cons h _ => rw [hj] at h; simp at h
    | ok a =>
      simp only
      rw [set_of_not_mem hk, ih]
      · constructor
        · rintro ⟨r, rfl, h⟩
          exact ⟨(k, a) :: r, by simp, .cons ⟨rfl, hj⟩ h⟩
        · rintro ⟨r, rfl, h⟩
          cases h with
          | @cons _ y _ r h1 h2 =>
            obtain ⟨k', a'⟩ := y
            rw [hj] at h1
            simp only [Except.ok.injEq] at h1
            obtain ⟨rfl, rfl⟩ := h1
            exact ⟨r, by simp, h2⟩
      · simpa [GoMap.keys, List.append_assoc] using hn

theorem forall₂_keys {α β : Type} {R : α → β → Prop} {m : GoMap Str α} {m' : GoMap Str β}
    (h : List.Forall₂ (fun x y => x.1 = y.1 ∧ R x.2 y.2) m m') : m.map (·.1) = m'.map (·.1) := by
  induction h with
  | nil => rfl
  | cons h _ ih => rw [List.map_cons, List.map_cons, h.1, ih]

theorem forall₂_get? {α β : Type} {R : α → β → Prop} {m : GoMap Str α} {m' : GoMap Str β}
    (h : List.Forall₂ (fun x y => x.1 = y.1 ∧ R x.2 y.2) m m') (k : Str) : Option.Rel R (m.get? k) (m'.get? k) := by
  induction h with
  | nil => exact .none
  | @cons x y m m' h _ ih =>
    obtain ⟨k1, a⟩ := x
    obtain ⟨k2, b⟩ := y
    obtain ⟨rfl, hr⟩ := h
    simp only [GoMap.get?]
    split
    · exact .some hr
    · exact ih

theorem sortFields_perm (fs : List (Str × Json)) : (sortFields fs).Perm fs := List.perm_insertionSort _ _

theorem map_survives_iff {α : Type} {enc : α → Res Json} {dec : Json → Res α} {R : α → α → Prop} {m : GoMap Str α}
    (hm : GoMap.WF m) :
    Survives (encodeMap enc) (decodeMap dec) (fun m m' => GoMap.WF m' ∧ SameMap R m m') m ↔ ∀ x ∈ m, Survives enc dec R x.2 := by
  constructor
  · rintro ⟨j, m', h1, h2, hwf, hs⟩ ⟨k, a⟩ hx
    unfold encodeMap at h1
    cases he : encodeEntries enc m with
    | error f => rw [he] at h1; simp [Except.map] at h1
    | ok fs =>
      rw [he] at h1
      simp only [Except.map, Except.ok.injEq] at h1
      subst h1
      simp only [decodeMap] at h2
      rw [encodeEntries_ok_iff] at he
      have hk := forall₂_keys (R := fun a j => enc a = .ok j) he
      have hfs : GoMap.WF fs := by unfold GoMap.WF; rw [← hk]; exact hm
      have hsort : GoMap.WF (sortFields fs) := ((sortFields_perm fs).map _).nodup_iff.2 hfs
      rw [decodeEntries_ok_iff (by simpa [GoMap.keys, GoMap.WF] using hsort)] at h2
      obtain ⟨r, hr, h2⟩ := h2
      rw [List.nil_append] at hr
      subst hr
      have r1 := forall₂_get? (R := fun a j => enc a = .ok j) he k
      have r2 := forall₂_get? (R := fun j a => dec j = .ok a) h2 k
      have r3 := hs k
      rw [GoMap.get?_perm hsort (sortFields_perm fs)] at r2
      rw [GoMap.get?_of_mem hm hx] at r1 r3
      cases h4 : GoMap.get? fs k with
      | none => rw [h4] at r1; cases r1
      | some j =>
        rw [h4] at r1 r2
        cases r1 with
        | some r1 =>
          cases h5 : GoMap.get? m' k with
          | none => rw [h5] at r2; cases r2
          | some a' =>
            rw [h5] at r2 r3
            cases r2 with
            | some r2 =>
              cases r3 with
              | some r3 => exact ⟨j, a', r1, r2, r3⟩
  · intro h
    have h1 : ∃ fs, encodeEntries enc m = .ok fs ∧ ∀ y ∈ fs, ∃ a', dec y.2 = .ok a' := by
      simp only [encodeEntries_ok_iff]
      clear hm
      induction m with
      | nil => exact ⟨[], .nil, by simp⟩
      | cons x m ih =>
        obtain ⟨fs, g1, g2⟩ := ih (fun y hy => h y (by simp [hy]))
        obtain ⟨j, a', e1, e2, _⟩ := h x (by simp)
        refine ⟨(x.1, j) :: fs, .cons ⟨rfl, e1⟩ g1, ?_⟩
        intro y hy
        rcases List.mem_cons.1 hy with rfl | hy
        · exact ⟨a', e2⟩
        · exact g2 y hy
    obtain ⟨fs, h1, h2⟩ := h1
    have h1' := h1
    rw [encodeEntries_ok_iff] at h1
    have hk := forall₂_keys (R := fun a j => enc a = .ok j) h1
    have hfs : GoMap.WF fs := by unfold GoMap.WF; rw [← hk]; exact hm
    have hsort : GoMap.WF (sortFields fs) := ((sortFields_perm fs).map _).nodup_iff.2 hfs
    have h3 : ∃ r : List (Str × α), List.Forall₂ (fun x y => x.1 = y.1 ∧ dec x.2 = .ok y.2) (sortFields fs) r := by
      have : ∀ y ∈ sortFields fs, ∃ a', dec y.2 = .ok a' := fun y hy => h2 y ((sortFields_perm fs).mem_iff.1 hy)
      generalize sortFields fs = l at this
      induction l with
      | nil => exact ⟨[], .nil⟩
      | cons y l ih =>
        obtain ⟨r, hr⟩ := ih (fun z hz => this z (by simp [hz]))
        obtain ⟨a', ha⟩ := this y (by simp)
        exact ⟨(y.1, a') :: r, .cons ⟨rfl, ha⟩ hr⟩
    obtain ⟨r, h3⟩ := h3
    refine ⟨.obj (sortFields fs), r, by rw [encodeMap, h1']; rfl, ?_, ?_, ?_⟩
    · simp only [decodeMap]
      rw [decodeEntries_ok_iff (by simpa [GoMap.keys, GoMap.WF] using hsort)]
      exact ⟨r, rfl, h3⟩
    · unfold GoMap.WF; rw [← forall₂_keys (R := fun j a => dec j = .ok a) h3]; exact hsort
    · intro k
      have r1 := forall₂_get? (R := fun a j => enc a = .ok j) h1 k
      have r2 := forall₂_get? (R := fun j a => dec j = .ok a) h3 k
      rw [GoMap.get?_perm hsort (sortFields_perm fs)] at r2
      cases h4 : GoMap.get? m k with
      | none =>
        rw [h4] at r1
        cases h5 : GoMap.get? fs k with
        | some j => rw [h5] at r1; cases r1
        | none =>
          rw [h5] at r2
          cases h6 : GoMap.get? r k with
          | some a => rw [h6] at r2; cases r2
          | none => exact .none
      | some a =>
        rw [h4] at r1
        cases h5 : GoMap.get? fs k with
        | none => rw [h5] at r1; cases r1
        | some j =>
          rw [h5] at r1 r2
          cases h6 : GoMap.get? r k with
          | none => rw [h6] at r2; cases r2
          | some a' =>
            rw [h6] at r2
            cases r1 with
            | some r1 =>
              cases r2 with
              | some r2 =>
                obtain ⟨j', a'', e1, e2, e3⟩ := h _ (GoMap.mem_of_get? h4)
                rw [r1] at e1
                cases e1
                rw [r2] at e2
                cases e2
                exact .some e3

theorem sameMap_eq_iff {α : Type} {m m' : GoMap Str α} : SameMap Eq m m' ↔ GoMap.Equiv m m' := by
  constructor
  · intro h k
    have := h k
    generalize m.get? k = x at this ⊢
    generalize m'.get? k = y at this ⊢
    cases this with
    | none => rfl
    | some h => rw [h]
  · intro h k
    rw [h k]
    cases m'.get? k with
    | none => exact .none
    | some a => exact .some rfl

/-! ### nodes -/

theorem outcome_declared {o : Outcome} (h : o ∈ [oUnset, oInc, oFail, oPass]) : Outcome.parse o.string = .ok o := by
  simp only [List.mem_cons, List.not_mem_nil, or_false] at h
  rcases h with rfl | rfl | rfl | rfl <;> rfl

theorem outcome_parse_string {o o' : Outcome} (h : Outcome.parse o.string = .ok o') : o ∈ [oUnset, oInc, oFail, oPass] := by
  by_cases hd : ∃ name, (o, name) ∈ outcomeMembers
  · obtain ⟨name, hd⟩ := hd
    simp only [outcomeMembers, List.mem_cons, Prod.mk.injEq, List.not_mem_nil, or_false] at hd
    rcases hd with ⟨rfl, _⟩ | ⟨rfl, _⟩ | ⟨rfl, _⟩ | ⟨rfl, _⟩ <;> simp
  · rw [C01_outcome.undeclared_rejected o hd] at h
    simp at h

theorem everywhere_iff {P : Node → Prop} {n : Node} : Everywhere P n ↔ P n ∧ ∀ c ∈ n.next, Everywhere P c := by
  constructor
  · intro h
    refine ⟨h [] n rfl, ?_⟩
    intro c hc p n' hn
    obtain ⟨i, hi, rfl⟩ := List.getElem_of_mem hc
    refine h (i :: p) n' ?_
    simp only [nodeAt, List.getElem?_eq_getElem hi]
    exact hn
  · rintro ⟨h1, h2⟩ p n' hn
    cases p with
    | nil => simp only [nodeAt, Option.some.injEq] at hn; exact hn ▸ h1
    | cons i p =>
      simp only [nodeAt] at hn
      cases hi : n.next[i]? with
      | none => rw [hi] at hn; simp at hn
      | some c =>
        rw [hi] at hn
        exact h2 c (List.mem_of_getElem? hi) p n' hn

theorem decodeNodeFields_append (n : Node) (a b : List (Str × Json)) :
    decodeNodeFields n (a ++ b) =
      match decodeNodeFields n a with
      | .error e => .error e
      | .ok n => decodeNodeFields n b := by
  induction a generalizing n with
  | nil => rw [List.nil_append, show decodeNodeFields n [] = .ok n by rw [decodeNodeFields]]
  | cons f a ih =>
    rw [List.cons_append, decodeNodeFields, decodeNodeFields]
    cases decodeNodeField n f with
    | error e => rfl
    | ok n => exact ih n

theorem decodeElems_strs (l : List Str) : decodeElems (decodeStr []) (l.map .str) = .ok l := by
  induction l with
  | nil => rfl
  | cons s l ih => simp only [List.map_cons, decodeElems, decodeStr, ih]

theorem decodeNodeFields_singleton (n : Node) (f : Str × Json) : decodeNodeFields n [f] = decodeNodeField n f := by
  rw [decodeNodeFields]
  cases decodeNodeField n f with
  | error e => rfl
  | ok n =>
    show decodeNodeFields n [] = _
    rw [decodeNodeFields]

theorem encodeEvent_total (e : Option Event) : ∃ fs, encodeEvent e = .ok fs := by
  cases e with
  | none => exact ⟨_, rfl⟩
  | some e =>
    obtain ⟨t, ht⟩ := C07_marshal_total e
    exact ⟨[(c!"event", .str t)], by simp only [encodeEvent, ht]⟩

mutual
theorem encodeNode_total : ∀ n : Node, ∃ fs, encodeNode n = .ok (.obj fs)
  | ⟨id, tests, outcome, event, next⟩ => by
    obtain ⟨ev, hev⟩ := encodeEvent_total event
    obtain ⟨ns, hns⟩ := encodeNodes_total next
    rw [encodeNode, hev]
    simp only [hns]
    exact ⟨_, rfl⟩
theorem encodeNodes_total : ∀ ns : List Node, ∃ js, encodeNode.encodeNodes ns = .ok js
  | [] => ⟨[], by rw [encodeNode.encodeNodes]⟩
  | n :: ns => by
    obtain ⟨j, hj⟩ := encodeNode_total n
    obtain ⟨js, hjs⟩ := encodeNodes_total ns
    rw [encodeNode.encodeNodes, hj]
    simp only [hjs]
    exact ⟨_, rfl⟩
end

/-- What reading back the written event field gives. -/
theorem decode_event {n : Node} (hn : n.event = none) {e : Option Event} {fs : List (Str × Json)} (h : encodeEvent e = .ok fs) :
    (∃ n', decodeNodeFields n fs = .ok n' ∧ n'.event = e) ↔ ∀ x, e = some x → GoodEvent x := by
  cases e with
  | none =>
    simp only [encodeEvent, Except.ok.injEq] at h
    subst h
    rw [decodeNodeFields]
    simp [hn]
  | some x =>
    obtain ⟨t, ht⟩ := C07_marshal_total x
    simp only [encodeEvent, ht, Except.ok.injEq] at h
    subst h
    have : (∀ y, some x = some y → GoodEvent y) ↔ GoodEvent x := by simp
    rw [this, ← C07_event_roundtrip]
    simp only [ht, Except.ok.injEq, exists_eq_left']
    rw [decodeNodeFields_singleton]
    have hf : decodeNodeField n (c!"event", .str t) = (decodeEvent n.event (.str t)).map fun x => { n with event := x } := by
      rw [decodeNodeField, if_neg (by decide), if_neg (by decide), if_neg (by decide), if_pos (by decide)]
    rw [hf, hn]
    simp only [decodeEvent, Option.getD_none, Event.parse]
    rcases Event.unmarshalText Event.zero t with ⟨e, _ | f⟩ <;> simp [Except.map]

theorem decode_event_only {n n' : Node} {e : Option Event} {fs : List (Str × Json)} (h : encodeEvent e = .ok fs)
    (hd : decodeNodeFields n fs = .ok n') : n' = { n with event := n'.event } := by
  cases e with
  | none =>
    simp only [encodeEvent, Except.ok.injEq] at h
    subst h
    rw [decodeNodeFields] at hd
    simp only [Except.ok.injEq] at hd
    subst hd; cases n; rfl
  | some x =>
    obtain ⟨t, ht⟩ := C07_marshal_total x
    simp only [encodeEvent, ht, Except.ok.injEq] at h
    subst h
    rw [decodeNodeFields_singleton] at hd
    have hf : decodeNodeField n (c!"event", .str t) = (decodeEvent n.event (.str t)).map fun x => { n with event := x } := by
      rw [decodeNodeField, if_neg (by decide), if_neg (by decide), if_neg (by decide), if_pos (by decide)]
    rw [hf] at hd
    cases hq : decodeEvent n.event (.str t) with
    | error f => rw [hq] at hd; simp [Except.map] at hd
    | ok y => rw [hq] at hd; simp only [Except.map, Except.ok.injEq] at hd; subst hd; rfl

theorem decode_id (id : Str) :
    decodeNodeFields zeroNode (field c!"id" (id = []) (.str id)) = .ok { zeroNode with id := id } := by
  unfold field
  by_cases h : id = []
  · subst h; rw [if_pos (by decide), decodeNodeFields]; rfl
  · rw [if_neg (by simpa using h), decodeNodeFields_singleton, decodeNodeField, if_pos (by decide)]; rfl

theorem decode_tests (n : Node) (hn : n.tests = []) (tests : List Str) :
    decodeNodeFields n (field c!"tests" (tests = []) (.arr (tests.map .str))) = .ok { n with tests := tests } := by
  unfold field
  by_cases h : tests = []
  · subst h; rw [if_pos (by decide), decodeNodeFields]; cases n; simp only at hn; subst hn; rfl
  · rw [if_neg (by simpa using h), decodeNodeFields_singleton, decodeNodeField, if_neg (by decide), if_pos (by decide)]
    simp only [decodeList, decodeElems_strs, Except.map]

theorem decode_outcome (n : Node) (hn : n.outcome = .unset) (o : Outcome) :
    decodeNodeFields n (field c!"outcome" (o.val = 0) (.str o.string)) =
      if o.val = 0 then .ok { n with outcome := o } else (Outcome.parse o.string).map fun x => { n with outcome := x } := by
  unfold field
  by_cases h : o.val = 0
  · rw [if_pos (by simpa using h), if_pos h, decodeNodeFields]; cases n; simp only at hn; subst hn
    cases o; simp only at h; subst h; rfl
  · rw [if_neg (by simpa using h), if_neg h, decodeNodeFields_singleton, decodeNodeField, if_neg (by decide), if_neg (by decide),
      if_pos (by decide)]
    rfl

theorem decode_next (n : Node) (hn : n.next = []) (ns : List Json) :
    decodeNodeFields n (field c!"next" (ns.length = 0) (.arr ns)) = (decodeNodes ns).map fun x => { n with next := x } := by
  unfold field
  cases ns with
  | nil =>
    rw [if_pos (by decide), decodeNodeFields, decodeNodes]; cases n; simp only at hn; subst hn; rfl
  | cons j ns =>
    rw [if_neg (by simp), decodeNodeFields_singleton, decodeNodeField, if_neg (by decide), if_neg (by decide), if_neg (by decide),
      if_neg (by decide), if_pos (by decide), decodeNodeList]

mutual
theorem node_survives : ∀ (n : Node) (j : Json), encodeNode n = .ok j → (decodeNode j = .ok n ↔ Everywhere SavableNode n)
  | ⟨id, tests, outcome, event, next⟩, j => by
    intro h
    obtain ⟨ev, hev⟩ := encodeEvent_total event
    obtain ⟨ns, hns⟩ := encodeNodes_total next
    rw [encodeNode, hev] at h
    simp only [hns, Except.ok.injEq] at h
    subst h
    rw [decodeNode, everywhere_iff]
    simp only [List.append_assoc]
    rw [decodeNodeFields_append, decode_id]
    simp only
    rw [decodeNodeFields_append, decode_tests _ rfl]
    simp only
    rw [decodeNodeFields_append, decode_outcome _ rfl]
    have hkids := nodes_survive next ns hns
    rw [← hkids]
    have key : ∀ n0 : Node, n0.event = none → n0.next = [] → n0.id = id → n0.tests = tests → n0.outcome = outcome →
        (decodeNodeFields n0 (ev ++ field c!"next" (decide (ns.length = 0)) (.arr ns)) = .ok ⟨id, tests, outcome, event, next⟩ ↔
          (∀ e, event = some e → GoodEvent e) ∧ decodeNodes ns = .ok next) := by
      intro n0 h1 h2 h3 h4 h5
      rw [decodeNodeFields_append, ← decode_event h1 hev]
      cases hd : decodeNodeFields n0 ev with
      | error f => simp
      | ok n1 =>
        have hsame := decode_event_only hev hd
        simp only [Except.ok.injEq, exists_eq_left']
        rw [decode_next n1 (by rw [hsame]; exact h2)]
        cases hq : decodeNodes ns with
        | error f => simp [Except.map]
        | ok x =>
          rw [hsame]
          simp only [Except.map, Except.ok.injEq, Node.mk.injEq, h3, h4, h5, true_and]
    by_cases h0 : outcome.val = 0
    · rw [if_pos h0]
      simp only
      rw [key _ rfl rfl rfl rfl rfl]
      have ho : outcome = oUnset := by cases outcome; simp only at h0; subst h0; rfl
      subst ho
      simp [SavableNode]
    · rw [if_neg h0]
      by_cases hm : outcome ∈ [oUnset, oInc, oFail, oPass]
      · rw [outcome_declared hm]
        simp only [Except.map]
        rw [key _ rfl rfl rfl rfl rfl]
        simp only [SavableNode, hm, and_true]
      · cases hp : Outcome.parse outcome.string with
        | ok o' => exact absurd (outcome_parse_string hp) hm
        | error f =>
          simp only [Except.map, SavableNode, hm, and_false, false_and]
          simp
theorem nodes_survive : ∀ (ns : List Node) (js : List Json), encodeNode.encodeNodes ns = .ok js →
    (decodeNodes js = .ok ns ↔ ∀ n ∈ ns, Everywhere SavableNode n)
  | [], js => by
    intro h
    rw [encodeNode.encodeNodes] at h
    simp only [Except.ok.injEq] at h
    subst h
    rw [decodeNodes]
    simp
  | n :: ns, js => by
    intro h
    obtain ⟨fs, hj⟩ := encodeNode_total n
    obtain ⟨js', hjs⟩ := encodeNodes_total ns
    rw [encodeNode.encodeNodes, hj] at h
    simp only [hjs, Except.ok.injEq] at h
    subst h
    have h1 := node_survives n _ hj
    have h2 := nodes_survive ns _ hjs
    rw [decodeNodes]
    simp only [List.mem_cons, forall_eq_or_imp, ← h1, ← h2]
    cases hd : decodeNode (.obj fs) with
    | error e => simp
    | ok n' =>
      simp only [Except.ok.injEq]
      cases hds : decodeNodes js' with
      | error e => simp
      | ok ns' => simp
end

theorem nodePtr_survives_iff (n : Option Node) :
    Survives encodeNodePtr decodeNodePtr Eq n ↔ ∀ r, n = some r → Everywhere SavableNode r := by
  cases n with
  | none => simp [Survives, encodeNodePtr, decodeNodePtr]
  | some r =>
    obtain ⟨fs, hj⟩ := encodeNode_total r
    have := node_survives r _ hj
    simp only [Survives, encodeNodePtr, hj, Except.ok.injEq, Option.some.injEq, forall_eq']
    rw [← this]
    constructor
    · rintro ⟨_, _, rfl, h, rfl⟩
      simp only [decodeNodePtr] at h
      cases hd : decodeNode (.obj fs) with
      | error e => rw [hd] at h; simp [Except.map] at h
      | ok n' => rw [hd] at h; simpa [Except.map] using h
    · intro h
      exact ⟨_, _, rfl, by simp only [decodeNodePtr, h, Except.map], rfl⟩

end Json

end Rtcg
