import Verif.Proofs.JsonSuite

/-
What events a suite read from JSON can hold.
-/

namespace Rtcg

open Rtcg.Spec

/-- Everything but an empty channel name survives the text format. -/
def ReadEvent (e : Event) : Prop :=
  (NoOuterSpace e.channel.name ∧ '.' ∉ e.channel.name ∧ (e.channel.kind = .in_ ∨ e.channel.kind = .out ∨ e.channel.kind = .call)) ∧
    (e.value = .none ∨ GoodValue e.value)

theorem ReadEvent.good {e : Event} (h : ReadEvent e) (hn : e.channel.name ≠ []) : GoodEvent e :=
  ⟨⟨⟨hn, h.1.1, h.1.2.1⟩, h.1.2.2⟩, h.2⟩

theorem readEvent_zero : ReadEvent Event.zero :=
  ⟨⟨noOuterSpace_of_forall (by decide), by decide, by decide⟩, Or.inl rfl⟩

theorem readEvent_parse {t : Str} {e : Event} (h : Event.parse t = .ok e) : ReadEvent e := by
  rw [event_parse_ok_iff] at h
  constructor
  · rcases h with ⟨h, _⟩ | ⟨r, h, _⟩ <;> exact readsAsChannel_facts h
  · rcases h with ⟨_, h⟩ | ⟨r, _, h⟩
    · exact Or.inl h
    · exact Or.inr (value_unmarshal_good h)

theorem readEvent_unmarshal {old e : Event} {t : Str} (ho : ReadEvent old) (h : Event.unmarshalText old t = (e, none)) :
    ReadEvent e := by
  obtain ⟨h1, h2⟩ := C08_receiver_independence_partial old t
  cases hp : Event.parse t with
  | error f => have := h2 f hp; rw [h] at this; cases this
  | ok x =>
    have h3 := h1 x hp
    rw [h] at h3
    simp only [Prod.mk.injEq, and_true] at h3
    have hx := readEvent_parse hp
    rw [h3]
    refine ⟨hx.1, ?_⟩
    simp only
    split
    · exact ho.2
    · exact hx.2

namespace Json

/-- Every event of the tree is as read. -/
def ReadTree (n : Node) : Prop := Everywhere (fun n => ∀ e, n.event = some e → ReadEvent e) n

theorem readTree_iff {n : Node} : ReadTree n ↔ (∀ e, n.event = some e → ReadEvent e) ∧ ∀ c ∈ n.next, ReadTree c := everywhere_iff

theorem decodeEvent_read {old e : Option Event} {j : Json} (ho : ∀ e, old = some e → ReadEvent e) (h : decodeEvent old j = .ok e) :
    ∀ x, e = some x → ReadEvent x := by
  cases j with
  | null => simp only [decodeEvent, Except.ok.injEq] at h; subst h; simp
  | str s =>
    simp only [decodeEvent] at h
    rcases hu : Event.unmarshalText (old.getD Event.zero) s with ⟨e', _ | f⟩
    · rw [hu] at h
      simp only [Except.ok.injEq] at h
      subst h
      intro x hx
      cases hx
      refine readEvent_unmarshal ?_ hu
      cases old with
      | none => exact readEvent_zero
      | some y => exact ho y rfl
    · rw [hu] at h; cases h
  | _ => simp [decodeEvent, throwErr] at h

theorem map_ok {α β : Type} {r : Res α} {g : α → β} {b : β} (h : r.map g = .ok b) : ∃ a, r = .ok a ∧ g a = b := by
  cases r with
  | error f => simp [Except.map] at h
  | ok a => exact ⟨a, rfl, by simpa [Except.map] using h⟩

theorem readTree_zero : ReadTree zeroNode := readTree_iff.2 ⟨by simp [zeroNode], by simp [zeroNode]⟩

mutual
theorem read_node : ∀ (j : Json) (n : Node), decodeNode j = .ok n → ReadTree n
  | .null, n, h => by rw [decodeNode] at h; cases h; exact readTree_zero
  | .obj fs, n, h => by rw [decodeNode] at h; exact read_fields fs zeroNode n readTree_zero h
  | .bool _, n, h => by rw [decodeNode] at h <;> simp_all [throwErr]
  | .num _, n, h => by rw [decodeNode] at h <;> simp_all [throwErr]
  | .str _, n, h => by rw [decodeNode] at h <;> simp_all [throwErr]
  | .arr _, n, h => by rw [decodeNode] at h <;> simp_all [throwErr]
theorem read_fields : ∀ (fs : List (Str × Json)) (n n' : Node), ReadTree n → decodeNodeFields n fs = .ok n' → ReadTree n'
  | [], n, n', hn, h => by rw [decodeNodeFields] at h; cases h; exact hn
  | f :: fs, n, n', hn, h => by
    rw [decodeNodeFields] at h
    cases hf : decodeNodeField n f with
    | error e => rw [hf] at h; cases h
    | ok m =>
      rw [hf] at h
      exact read_fields fs m n' (read_field f n m hn hf) h
theorem read_field : ∀ (f : Str × Json) (n n' : Node), ReadTree n → decodeNodeField n f = .ok n' → ReadTree n'
  | (k, j), n, n', hn, h => by
    rw [readTree_iff] at hn
    rw [decodeNodeField] at h
    by_cases h1 : isField c!"id" k = true
    · rw [if_pos h1] at h
      obtain ⟨x, _, rfl⟩ := map_ok h
      exact readTree_iff.2 hn
    rw [if_neg h1] at h
    by_cases h2 : isField c!"tests" k = true
    · rw [if_pos h2] at h
      obtain ⟨x, _, rfl⟩ := map_ok h
      exact readTree_iff.2 hn
    rw [if_neg h2] at h
    by_cases h3 : isField c!"outcome" k = true
    · rw [if_pos h3] at h
      obtain ⟨x, _, rfl⟩ := map_ok h
      exact readTree_iff.2 hn
    rw [if_neg h3] at h
    by_cases h4 : isField c!"event" k = true
    · rw [if_pos h4] at h
      obtain ⟨x, hx, rfl⟩ := map_ok h
      exact readTree_iff.2 ⟨decodeEvent_read hn.1 hx, hn.2⟩
    rw [if_neg h4] at h
    by_cases h5 : isField c!"next" k = true
    · rw [if_pos h5] at h
      obtain ⟨x, hx, rfl⟩ := map_ok h
      exact readTree_iff.2 ⟨hn.1, read_list j x hx⟩
    rw [if_neg h5] at h
    cases h
    exact readTree_iff.2 hn
theorem read_list : ∀ (j : Json) (ns : List Node), decodeNodeList j = .ok ns → ∀ c ∈ ns, ReadTree c
  | .null, n, h => by rw [decodeNodeList] at h; cases h; simp
  | .arr xs, n, h => by rw [decodeNodeList] at h; exact read_nodes xs n h
  | .bool _, n, h => by rw [decodeNodeList] at h <;> simp_all [throwErr]
  | .num _, n, h => by rw [decodeNodeList] at h <;> simp_all [throwErr]
  | .str _, n, h => by rw [decodeNodeList] at h <;> simp_all [throwErr]
  | .obj _, n, h => by rw [decodeNodeList] at h <;> simp_all [throwErr]
theorem read_nodes : ∀ (js : List Json) (ns : List Node), decodeNodes js = .ok ns → ∀ c ∈ ns, ReadTree c
  | [], ns, h => by rw [decodeNodes] at h; cases h; simp
  | j :: js, ns, h => by
    rw [decodeNodes] at h
    cases hj : decodeNode j with
    | error e => rw [hj] at h; cases h
    | ok n =>
      rw [hj] at h
      simp only at h
      cases hjs : decodeNodes js with
      | error e => rw [hjs] at h; cases h
      | ok ns' =>
        rw [hjs] at h
        cases h
        intro c hc
        rcases List.mem_cons.1 hc with rfl | hc
        · exact read_node j _ hj
        · exact read_nodes js ns' hjs c hc
end

theorem mem_set {α : Type} {m : GoMap Str α} {k : Str} {a : α} {x : Str × α} (h : x ∈ GoMap.set m k a) : x ∈ m ∨ x = (k, a) := by
  induction m with
  | nil => simpa [GoMap.set] using h
  | cons y m ih =>
    obtain ⟨k', b⟩ := y
    simp only [GoMap.set] at h
    split at h
    · rename_i e
      rcases List.mem_cons.1 h with rfl | h
      · right; simp [e]
      · exact Or.inl (List.mem_cons_of_mem _ h)
    · rcases List.mem_cons.1 h with rfl | h
      · exact Or.inl (by simp)
      · rcases ih h with h | h
        · exact Or.inl (List.mem_cons_of_mem _ h)
        · exact Or.inr h

theorem decodeEntries_all {α : Type} {dec : Json → Res α} {P : α → Prop} (hd : ∀ j a, dec j = .ok a → P a) {acc m : GoMap Str α}
    {fs : List (Str × Json)} (ha : ∀ x ∈ acc, P x.2) (h : decodeEntries dec acc fs = .ok m) : ∀ x ∈ m, P x.2 := by
  induction fs generalizing acc with
  | nil => simp only [decodeEntries, Except.ok.injEq] at h; exact h ▸ ha
  | cons x fs ih =>
    obtain ⟨k, j⟩ := x
    simp only [decodeEntries] at h
    cases hj : dec j with
    | error f => rw [hj] at h; simp at h
    | ok a =>
      rw [hj] at h
      refine ih ?_ h
      intro x hx
      rcases mem_set hx with hx | hx
      · exact ha x hx
      · rw [hx]; exact hd j a hj

theorem decodeMap_all {α : Type} {dec : Json → Res α} {P : α → Prop} (hd : ∀ j a, dec j = .ok a → P a) {j : Json} {m : GoMap Str α}
    (h : decodeMap dec j = .ok m) : ∀ x ∈ m, P x.2 := by
  cases j with
  | null => simp only [decodeMap, Except.ok.injEq] at h; subst h; simp
  | obj fs => exact decodeEntries_all hd (by simp) h
  | _ => simp [decodeMap, throwErr] at h

theorem decodeSuite_read {j : Json} {s : Validate.Suite} (h : decodeSuite j = .ok s) : ∀ k r, (k, some r) ∈ s → ReadTree r := by
  have := decodeMap_all (P := fun o => ∀ r, o = some r → ReadTree r) (dec := decodeNodePtr) ?_ h
  · intro k r hk; exact this _ hk r rfl
  · intro j a hj r hr
    subst hr
    cases j with
    | null => simp [decodeNodePtr] at hj
    | _ =>
      simp only [decodeNodePtr] at hj
      obtain ⟨x, hx, e⟩ := map_ok hj
      cases e
      exact read_node _ _ hx

end Json

end Rtcg
