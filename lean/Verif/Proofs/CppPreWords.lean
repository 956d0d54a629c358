import Verif.Proofs.CppPre

/-
The words that generated files define are replaced by types; other words stay.
-/

namespace Rtcg

namespace Spec

namespace Cpp

namespace Pre

open Parse Tree Lex Subst
open CppText Templates Rtcg.Cpp Tmpl

variable {U : Unicode} {v : Variant}

/-! ### words that cannot be defined -/

/-- Words that no channel makes defined, whatever its name -/
def safe (w : Str) : Bool :=
  w.head?.any (fun c => 97 ≤ c.toNat && c.toNat ≤ 122) ||
    (!c!"Val".isSuffixOf w && !c!"Msg".isSuffixOf w && w ≠ c!"RTCG_H_DEFINED" && w ≠ c!"CONVERT_H_DEFINED")

/-- The names of channels are distinct in convert.h, and no defined word starts with a small letter -/
structure GoodChans (U : Unicode) (ctx : CppConfig.Context) : Prop where
  keys : (ctx.channelTypes.map (·.1)).Nodup
  distinct : ∀ a ∈ ctx.channelTypes.map (·.1), ∀ b ∈ ctx.channelTypes.map (·.1), convertTo U a = convertTo U b → a = b
  upper : ∀ a ∈ ctx.channelTypes.map (·.1), (Strmanip.upcaseFirst U a).head?.any (fun c => 97 ≤ c.toNat && c.toNat ≤ 122) = false
  nonempty : ∀ a ∈ ctx.channelTypes.map (·.1), Strmanip.upcaseFirst U a ≠ []

abbrev chansOf (ctx : CppConfig.Context) : List Str := ctx.channelTypes.map (·.1)

theorem head_app {a b : Str} (h : a ≠ []) : (a ++ b).head? = a.head? := by
  cases a with
  | nil => exact absurd rfl h
  | cons c a => rfl

theorem safe_undefined {ctx : CppConfig.Context} (hc : GoodChans U ctx) {w : Str} (h : safe w = true) : ¬ Defined U (· ∈ chansOf ctx) w := by
  rintro (rfl | rfl | ⟨ch, hch, rfl | rfl⟩)
  · exact absurd h (by decide)
  · exact absurd h (by decide)
  · unfold safe channelValueType at h
    have hs : c!"Val".isSuffixOf (Strmanip.upcaseFirst U ch ++ c!"Val") = true := List.isSuffixOf_iff_suffix.2 (List.suffix_append ..)
    rw [head_app (hc.nonempty ch hch), hc.upper ch hch, hs] at h
    simp at h
  · unfold safe channelMsgType at h
    have hs : c!"Msg".isSuffixOf (Strmanip.upcaseFirst U ch ++ c!"Msg") = true := List.isSuffixOf_iff_suffix.2 (List.suffix_append ..)
    rw [head_app (hc.nonempty ch hch), hc.upper ch hch, hs] at h
    simp at h

theorem safe_lower {c : Char} {w : Str} (h : (97 ≤ c.toNat && c.toNat ≤ 122) = true) : safe (c :: w) = true := by
  unfold safe
  rw [List.head?_cons, Option.any_some, h]
  rfl

theorem safe_last {w : Str} {c : Char} (h : c ≠ 'l' ∧ c ≠ 'g' ∧ c ≠ 'D') : safe (w ++ [c]) = true := by
  have hs : ∀ u : Str, ∀ d, d ≠ c → ¬ (u ++ [d]) <:+ w ++ [c] := by
    rintro u d hd ⟨x, hx⟩
    have := congrArg List.getLast? hx
    rw [← List.append_assoc, List.getLast?_concat, List.getLast?_concat] at this
    exact hd (Option.some.inj this)
  have hn : ∀ u : Str, ∀ d, d ≠ c → w ++ [c] ≠ u ++ [d] := fun u d hd he => hs u d hd (he ▸ List.suffix_refl _)
  have h1 : c!"Val".isSuffixOf (w ++ [c]) = false := Bool.eq_false_iff.2 fun hh => hs c!"Va" 'l' h.1.symm (List.isSuffixOf_iff_suffix.1 hh)
  have h2 : c!"Msg".isSuffixOf (w ++ [c]) = false := Bool.eq_false_iff.2 fun hh => hs c!"Ms" 'g' h.2.1.symm (List.isSuffixOf_iff_suffix.1 hh)
  have h3 := hn c!"RTCG_H_DEFINE" 'D' h.2.2.symm
  have h4 := hn c!"CONVERT_H_DEFINE" 'D' h.2.2.symm
  unfold safe
  rw [h1, h2, decide_eq_true (show w ++ [c] ≠ c!"RTCG_H_DEFINED" from h3), decide_eq_true (show w ++ [c] ≠ c!"CONVERT_H_DEFINED" from h4)]
  simp

theorem safe_keywords : ∀ w ∈ keywords, safe w = true := by decide

theorem safe_num (n : Nat) : safe (decNat n) = true := by
  have h1 := decNat_ne_nil n
  have h2 := decNat_digits n
  obtain ⟨w, c, h⟩ : ∃ w c, decNat n = w ++ [c] := ⟨_, _, (List.dropLast_append_getLast h1).symm⟩
  have hc := h2 c (by rw [h]; simp)
  rw [h]
  refine safe_last ⟨?_, ?_, ?_⟩ <;> (rintro rfl; exact absurd hc.2 (by decide))

/-! ### what is defined -/

theorem mem_macros {ctx : CppConfig.Context} {m : Str × List Tok} : m ∈ allMacros U v ctx ↔
    (∃ e ∈ ctx.channelTypes, m = msgDef U v e) ∨ (∃ e ∈ ctx.channelTypes, m = valDef U v e) ∨ m = (c!"CONVERT_H_DEFINED", []) ∨
    m = (c!"RTCG_H_DEFINED", []) := by
  unfold allMacros convertMacros
  simp only [List.mem_append, List.mem_reverse, List.mem_map, List.mem_cons, List.not_mem_nil, or_false, Exec.mem_sortEntries, eq_comm]

theorem undefined_find {ctx : CppConfig.Context} {w : Str} (h : ¬ Defined U (· ∈ chansOf ctx) w) : (allMacros U v ctx).find w = none := by
  rw [find_none]
  intro m hm he
  apply h
  subst he
  rcases mem_macros.1 hm with ⟨e, he, rfl⟩ | ⟨e, he, rfl⟩ | rfl | rfl
  · exact .inr (.inr ⟨e.1, List.mem_map_of_mem he, .inr rfl⟩)
  · exact .inr (.inr ⟨e.1, List.mem_map_of_mem he, .inl rfl⟩)
  · exact .inr (.inl rfl)
  · exact .inl rfl

theorem value_inj {ctx : CppConfig.Context} (hc : GoodChans U ctx) {a b : Str} (ha : a ∈ chansOf ctx) (hb : b ∈ chansOf ctx)
    (h : channelValueType U a = channelValueType U b) : a = b := by
  unfold channelValueType at h
  refine hc.distinct a ha b hb ?_
  unfold convertTo convert
  rw [List.append_cancel_right h]

theorem msg_inj {ctx : CppConfig.Context} (hc : GoodChans U ctx) {a b : Str} (ha : a ∈ chansOf ctx) (hb : b ∈ chansOf ctx)
    (h : channelMsgType U a = channelMsgType U b) : a = b := by
  unfold channelMsgType at h
  refine hc.distinct a ha b hb ?_
  unfold convertTo convert
  rw [List.append_cancel_right h]

theorem value_ne_msg (a b : Str) : channelValueType U a ≠ channelMsgType U b := by
  intro h
  have := congrArg List.getLast? h
  unfold channelValueType channelMsgType at this
  rw [List.getLast?_append, List.getLast?_append] at this
  simp at this

theorem value_last (a : Str) : (channelValueType U a).getLast? = some 'l' := by
  unfold channelValueType
  rw [List.getLast?_append]; rfl

theorem msg_last (a : Str) : (channelMsgType U a).getLast? = some 'g' := by
  unfold channelMsgType
  rw [List.getLast?_append]; rfl

theorem nodup_map {α β : Type} {l : List α} {f : α → β} (hl : l.Nodup) (hf : ∀ a ∈ l, ∀ b ∈ l, f a = f b → a = b) : (l.map f).Nodup := by
  unfold List.Nodup
  rw [List.pairwise_map]
  exact hl.imp_of_mem fun ha hb hne h => hne (hf _ ha _ hb h)

theorem macros_nodup {ctx : CppConfig.Context} (hc : GoodChans U ctx) : ((allMacros U v ctx).map (·.1)).Nodup := by
  have hp : ((sortEntries ctx.channelTypes).map (·.1)).Perm (chansOf ctx) := (List.mergeSort_perm ..).map _
  have hl : ((sortEntries ctx.channelTypes).map (·.1)).Nodup := hp.nodup_iff.2 hc.keys
  have hm : ∀ {a : Str}, a ∈ (sortEntries ctx.channelTypes).map (·.1) → a ∈ chansOf ctx := fun h => hp.mem_iff.1 h
  have h1 := nodup_map hl (f := channelMsgType U) fun a ha b hb => msg_inj hc (hm ha) (hm hb)
  have h2 := nodup_map hl (f := channelValueType U) fun a ha b hb => value_inj hc (hm ha) (hm hb)
  have e : (allMacros U v ctx).map (·.1) = (((sortEntries ctx.channelTypes).map (·.1)).map (channelMsgType U)).reverse ++
      ((((sortEntries ctx.channelTypes).map (·.1)).map (channelValueType U)).reverse ++ [c!"CONVERT_H_DEFINED", c!"RTCG_H_DEFINED"]) := by
    unfold allMacros convertMacros
    simp only [List.map_append, List.map_reverse, List.map_map, List.map_cons, List.map_nil]
    rfl
  rw [e, List.nodup_append, List.nodup_append]
  refine ⟨List.nodup_reverse.2 h1, ⟨List.nodup_reverse.2 h2, by decide, ?_⟩, ?_⟩
  · intro a ha b hb he
    rw [List.mem_reverse] at ha
    obtain ⟨x, _, rfl⟩ := List.mem_map.1 ha
    have := value_last (U := U) x
    rw [he] at this
    simp only [List.mem_cons, List.not_mem_nil, or_false] at hb
    rcases hb with rfl | rfl <;> exact absurd this (by decide)
  · intro a ha b hb he
    rw [List.mem_reverse] at ha
    obtain ⟨x, _, rfl⟩ := List.mem_map.1 ha
    have := msg_last (U := U) x
    rcases List.mem_append.1 hb with hb | hb
    · rw [List.mem_reverse] at hb
      obtain ⟨y, _, rfl⟩ := List.mem_map.1 hb
      exact value_ne_msg _ _ he.symm
    · rw [he] at this
      simp only [List.mem_cons, List.not_mem_nil, or_false] at hb
      rcases hb with rfl | rfl <;> exact absurd this (by decide)

/-! ### what the words of channels stand for -/

theorem entry_of {ctx : CppConfig.Context} {ch : Str} (h : ch ∈ chansOf ctx) : ∃ e ∈ ctx.channelTypes, e.1 = ch := List.mem_map.1 h

theorem find_value {ctx : CppConfig.Context} (hc : GoodChans U ctx) {e : Str × CppConfig.ChannelType} (he : e ∈ ctx.channelTypes) :
    (allMacros U v ctx).find (channelValueType U e.1) = some (lex (valueType v e.2)) :=
  find_mem (macros_nodup hc) (mem_macros.2 (.inr (.inl ⟨e, he, rfl⟩)))

theorem find_msg {ctx : CppConfig.Context} (hc : GoodChans U ctx) {e : Str × CppConfig.ChannelType} (he : e ∈ ctx.channelTypes) :
    (allMacros U v ctx).find (channelMsgType U e.1) = some (lex (msgType U v e.1)) :=
  find_mem (macros_nodup hc) (mem_macros.2 (.inl ⟨e, he, rfl⟩))

theorem macros_length {ctx : CppConfig.Context} : ∃ n, (allMacros U v ctx).length = n + 1 + 1 := by
  unfold allMacros convertMacros
  exact ⟨_, by simp only [List.length_append, List.length_cons, List.length_nil]; rfl⟩

theorem expand_value {ctx : CppConfig.Context} (hc : GoodChans U ctx) {T : Str → CType} (hT : ValueTypes U v ctx T)
    {e : Str × CppConfig.ChannelType} (he : e ∈ ctx.channelTypes) (n : Nat) {w : Str} (hw : w ≠ channelValueType U e.1) :
    expandTok (n + 1) ((allMacros U v ctx).without w) (.word (channelValueType U e.1)) = lex (valueType v e.2) := by
  have := find_value (v := v) hc he
  rw [← find_without (M := allMacros U v ctx) hw.symm] at this
  rw [expandTok_word this, expandAll_self]
  intro x hx
  exact without_none (without_none (undefined_find (hT.undefined e he x hx)))

theorem pq_concat {q : List Str} (h : q ≠ []) (x : Str) : pq (q ++ [x]) = pq q ++ [.op c!"::", .word x] := by
  have hr : ∀ q : List Str, qrest (q ++ [x]) = qrest q ++ [.op c!"::", .word x] := by
    intro q
    induction q with
    | nil => rfl
    | cons w q ih => rw [List.cons_append, qrest, ih]; rfl
  cases q with
  | nil => exact absurd rfl h
  | cons w q => rw [List.cons_append, pq, hr]; rfl

theorem pTypeName_idents {q : List Str} (h : ∀ w ∈ q, isIdent w = true) : pTypeName q = pq q := by
  unfold pTypeName
  split
  · next he => subst he; exact absurd (h c!"unsigned int" (by simp)) (by decide)
  · rfl

theorem okName_ne {q : List Str} (h : OkTypeName q) : q ≠ [] := by
  rcases h with rfl | ⟨w, _, rfl⟩ | h
  · simp
  · simp
  · exact h.1

theorem lex_msg_ros {ch : Str} (h : Ident (channelValueType U ch)) : lex (msgType U .ros ch) =
    [.word (channelValueType U ch), .op c!"::", .word c!"ConstPtr", .op c!"&"] := by
  have hw := ident_W h
  have : scan (msgType U .ros ch) = [.word (channelValueType U ch), .op c!"::", .word c!"ConstPtr", .op c!"&"] := by
    show L .idle (channelValueType U ch ++ c!"::ConstPtr&") = _
    lexing [hw, L_nil, lexEnd]
  unfold lex
  rw [this]
  rfl

theorem lex_word {x : Str} (h : Ident x) : lex x = [.word x] := by
  have hw := ident_W h
  have : scan x = [.word x] := by
    show L .idle x = _
    have := L_idle_W [] hw
    rw [List.append_nil] at this
    rw [this]
    rfl
  unfold lex
  rw [this]
  rfl

/-- The types that words stand for, given the ones of the values of channels -/
def wordType (U : Unicode) (v : Variant) (T : Str → CType) (chans : List Str) (w : Str) : Option CType :=
  match chans.find? (fun ch => w = channelValueType U ch) with
  | some ch => some (T ch)
  | none => (chans.find? (fun ch => w = channelMsgType U ch)).map fun ch => msgOf v (T ch)

theorem wordType_value {ctx : CppConfig.Context} (hc : GoodChans U ctx) {T : Str → CType} {ch : Str} (h : ch ∈ chansOf ctx) :
    wordType U v T (chansOf ctx) (channelValueType U ch) = some (T ch) := by
  unfold wordType
  cases hf : (chansOf ctx).find? (fun c => channelValueType U ch = channelValueType U c) with
  | none => exact absurd (List.find?_eq_none.1 hf ch h) (by simp)
  | some c =>
    have h1 := List.find?_some hf
    have h2 := List.mem_of_find?_eq_some hf
    rw [value_inj hc h h2 (by simpa using h1)]

theorem wordType_msg {ctx : CppConfig.Context} (hc : GoodChans U ctx) {T : Str → CType} {ch : Str} (h : ch ∈ chansOf ctx) :
    wordType U v T (chansOf ctx) (channelMsgType U ch) = some (msgOf v (T ch)) := by
  unfold wordType
  have h0 : (chansOf ctx).find? (fun c => channelMsgType U ch = channelValueType U c) = none := by
    rw [List.find?_eq_none]
    intro c _
    simpa using fun he => value_ne_msg (U := U) c ch he.symm
  rw [h0]
  cases hf : (chansOf ctx).find? (fun c => channelMsgType U ch = channelMsgType U c) with
  | none => exact absurd (List.find?_eq_none.1 hf ch h) (by simp)
  | some c =>
    have h1 := List.find?_some hf
    have h2 := List.mem_of_find?_eq_some hf
    rw [msg_inj hc h h2 (by simpa using h1)]
    rfl

theorem wordType_inv {T : Str → CType} {chans : List Str} {w : Str} {s : CType} (h : wordType U v T chans w = some s) :
    ∃ ch ∈ chans, (w = channelValueType U ch ∧ s = T ch) ∨ (w = channelMsgType U ch ∧ s = msgOf v (T ch)) := by
  unfold wordType at h
  split at h
  · next ch hf =>
    exact ⟨ch, List.mem_of_find?_eq_some hf, .inl ⟨by simpa using List.find?_some hf, (Option.some.inj h).symm⟩⟩
  · obtain ⟨ch, hf, rfl⟩ := Option.map_eq_some_iff.1 h
    exact ⟨ch, List.mem_of_find?_eq_some hf, .inr ⟨by simpa using List.find?_some hf, rfl⟩⟩

theorem wordType_none {T : Str → CType} {chans : List Str} {w : Str} (h : ¬ Defined U (· ∈ chans) w) : wordType U v T chans w = none := by
  cases hw : wordType U v T chans w with
  | none => rfl
  | some s =>
    obtain ⟨ch, hch, h1⟩ := wordType_inv hw
    refine absurd (.inr (.inr ⟨ch, hch, ?_⟩)) h
    rcases h1 with h1 | h1
    · exact .inl h1.1
    · exact .inr h1.1

theorem value_tokens {ctx : CppConfig.Context} {T : Str → CType} (hT : ValueTypes U v ctx T) {e : Str × CppConfig.ChannelType}
    (he : e ∈ ctx.channelTypes) : lex (valueType v e.2) = pTypeName (T e.1).name ++ (T e.1).ptr.map .op ∧ OkType (T e.1) := by
  obtain ⟨h1, h2⟩ := spells_inv (hT.spells e he)
  refine ⟨?_, h2⟩
  rw [h1]
  unfold pType
  rw [(hT.spells e he).2]
  rfl

/-- The preprocessor replaces the words of channels by types -/
theorem replaces (hv : v = .animate ∨ v = .ros) {ctx : CppConfig.Context} (hc : GoodChans U ctx) (g : GoodConvert U ctx) {T : Str → CType}
    (hT : ValueTypes U v ctx T) :
    Replaces (wordType U v T (chansOf ctx)) (fun w => ¬ Defined U (· ∈ chansOf ctx) w) (expand (allMacros U v ctx)) := by
  refine ⟨fun o => expandTok_self _ _ (by simp), fun s => expandTok_self _ _ (by simp), ?_, ?_, ?_⟩
  · intro w hw
    exact ⟨expandTok_self _ _ (by rintro x ⟨rfl⟩; exact undefined_find hw), wordType_none hw⟩
  · intro w hw
    exact safe_undefined hc (safe_keywords w hw)
  · intro w s hs
    obtain ⟨ch, hch, h⟩ := wordType_inv hs
    obtain ⟨e, he, rfl⟩ := entry_of hch
    obtain ⟨n, hn⟩ := macros_length (U := U) (v := v) (ctx := ctx)
    obtain ⟨h1, h2⟩ := value_tokens hT he
    unfold expand
    rw [hn]
    rcases h with ⟨rfl, rfl⟩ | ⟨rfl, rfl⟩
    · refine ⟨?_, (g.channels e he).2.1⟩
      rw [expandTok_word (find_value hc he), expandAll_self, h1]
      intro x hx
      exact without_none (undefined_find (hT.undefined e he x hx))
    · refine ⟨?_, (g.channels e he).1⟩
      rw [expandTok_word (find_msg hc he)]
      have hval := expand_value hc hT he n (w := channelMsgType U e.1) (value_ne_msg _ _).symm
      rcases hv with rfl | rfl
      · have : msgType U .animate e.1 = channelValueType U e.1 := rfl
        rw [this, lex_word (g.channels e he).2.1, List.flatMap_cons, List.flatMap_nil, List.append_nil, hval, h1]
        rfl
      · obtain ⟨hp, hi⟩ := hT.classes rfl e he
        rw [lex_msg_ros (g.channels e he).2.1]
        simp only [List.flatMap_cons, List.flatMap_nil, hval, List.append_nil]
        rw [expandTok_self _ _ (t := .op c!"::") (by simp), expandTok_self _ _ (t := .op c!"&") (by simp),
          expandTok_self _ _ (t := .word c!"ConstPtr") (by
            rintro x ⟨rfl⟩; exact without_none (undefined_find (safe_undefined hc (by decide)))), h1, hp]
        have hq : ∀ w ∈ (T e.1).name ++ [c!"ConstPtr"], isIdent w = true := by
          intro w hw
          rcases List.mem_append.1 hw with hw | hw
          · exact hi w hw
          · rw [List.mem_singleton] at hw; subst hw; decide
        have : msgOf .ros (T e.1) = ⟨(T e.1).const, (T e.1).name ++ [c!"ConstPtr"], [c!"&"]⟩ := rfl
        rw [this]
        simp only
        rw [pTypeName_idents hi, pTypeName_idents hq, pq_concat (okName_ne h2.1)]
        simp only [List.map_nil, List.append_nil, List.append_assoc]
        rfl

/-- The types that words stand for can be written -/
theorem wordType_ok (hv : v = .animate ∨ v = .ros) {ctx : CppConfig.Context} {T : Str → CType}
    (hT : ValueTypes U v ctx T) : ∀ w s, wordType U v T (chansOf ctx) w = some s → OkType s := by
  intro w s hs
  obtain ⟨ch, hch, h⟩ := wordType_inv hs
  obtain ⟨e, he, rfl⟩ := entry_of hch
  have h2 := (value_tokens hT he).2
  rcases h with ⟨_, rfl⟩ | ⟨_, rfl⟩
  · exact h2
  · rcases hv with rfl | rfl
    · exact h2
    · obtain ⟨hp, hi⟩ := hT.classes rfl e he
      refine ⟨.inr (.inr ⟨?_, ?_⟩), ?_⟩
      · show (T e.1).name ++ [c!"ConstPtr"] ≠ []
        simp
      · intro w hw
        rcases List.mem_append.1 hw with hw | hw
        · exact hi w hw
        · rw [List.mem_singleton] at hw; subst hw; decide
      · intro o ho
        rw [show (msgOf .ros (T e.1)).ptr = [c!"&"] from rfl, List.mem_singleton] at ho
        exact .inr ho

end Pre

end Cpp

end Spec

end Rtcg
