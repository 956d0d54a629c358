import Verif.Spec.CppValues
import Verif.Proofs.CppTypes

/-
What the default conversions do.
-/

namespace Rtcg

namespace Spec

namespace Cpp

namespace Types

open Templates Rtcg.Cpp Tmpl Tree Pre

variable {U : Unicode} {v : Variant} {τ : Str → Option CType}

theorem untilZero_twice (s : Str) : Datum.untilZero (Datum.untilZero s) = Datum.untilZero s := by
  unfold Datum.untilZero
  induction s with
  | nil => rfl
  | cons c s ih =>
    simp only [List.takeWhile_cons]
    split
    · next h => simp only [List.takeWhile_cons, h, if_true, ih]
    · rfl

theorem as_of {t : CType} {d : Datum} (h : ∀ s, d ≠ .chars s) : Datum.as t d = d := by
  cases d with
  | chars s => exact absurd rfl (h s)
  | _ => rfl

theorem undo {ch : Str} {ct : CppConfig.ChannelType} {t : RsType} (hv : v = .animate ∨ v = .ros) (hτ : ∀ w, safe w = true → τ w = none)
    (hb : ct.base = some t) (ho : ct.hasOverride = false) (hc : Convertible v t) {d : Datum} (hd : d.OfType t) :
    ∃ m, (substItem τ (toItem U v (ch, ct))).apply d = some m ∧ (substItem τ (fromItem U v (ch, ct))).apply (received v m) = some (kept v d) := by
  have hbase : baseTy ct = cppType t := by unfold baseTy; rw [hb]; rfl
  have e1 : substItem τ (toItem U v (ch, ct)) = .fn (some (substT τ (ty [channelValueType U ch]))) [convertTo U ch]
      [(substT τ { baseTy ct with const := true }, c!"value")] (some (substSs τ (stmtsOf (toStmts v ct)))) := by
    unfold toItem
    rw [ho]
    rfl
  have e2 : substItem τ (fromItem U v (ch, ct)) = .fn (some (substT τ (baseTy ct))) [convertFrom U ch]
      [(substT τ ⟨true, [channelMsgType U ch], []⟩, c!"msg")] (some (substSs τ (stmtsOf (fromStmts v ct)))) := by
    unfold fromItem
    rw [ho]
    rfl
  rw [e1, e2]
  have hchars : ∀ s, d ≠ .chars s := by
    rintro s rfl
    exact hd
  rcases hv with rfl | rfl
  · have hrec : received .animate d = d := by cases d <;> rfl
    have hk : kept .animate d = d := by cases d <;> rfl
    refine ⟨d, ?_, ?_⟩
    · show some (Datum.as _ d) = some d
      rw [as_of hchars]
    · rw [hrec, hk]
      show some (Datum.as _ d) = some d
      rw [as_of hchars]
  · have he := (ros_iff t).1 hc
    have h : cppType t = ⟨false, [c!"std", c!"string"], []⟩ := by unfold cppType; rw [if_pos he]
    have hf : toStmts .ros ct = [.decl (ty [c!"std_msgs", c!"String"]) c!"msg",
        .expr (.assign (.post (nm c!"msg") (.dot c!"data" .nil)) (mcall c!"value" c!"c_str" [])), .retVal (nm c!"msg")] := by
      unfold toStmts
      rw [if_pos rfl, hb, Option.any_some, he, if_pos rfl]
    have hf' : fromStmts .ros ct =
        [.retVal (call [c!"std", c!"string"] [.post (nm c!"msg") (.arrow c!"data" (.dot c!"c_str" (.call .nil .nil)))])] := by
      unfold fromStmts
      rw [if_pos rfl, hb, Option.any_some, he, if_pos rfl]
    cases d with
    | text s =>
      refine ⟨.msg (Datum.untilZero s), ?_, ?_⟩
      · rw [hf]
        rfl
      · rw [hf']
        show some (Datum.as _ (.text (Datum.untilZero (Datum.untilZero s)))) = some (.text (Datum.untilZero s))
        rw [untilZero_twice]
        rfl
    | number i =>
      have hk : t.kind = .arithmos := hd
      rw [(isEnum_iff t).1 he] at hk
      exact absurd hk (by decide)
    | chars s => exact hd.elim
    | msg s => exact hd.elim
    | toMsg s => exact hd.elim

theorem ofType_like {S : RsType → Prop} {t : RsType} (hl : LeastUpper S t) {v : Value} (h : S v.type) {d : Datum} (hd : d.Like v) : d.OfType t := by
  have hk := SubType.kind (hl.1 _ h)
  cases d with
  | text s =>
    obtain ⟨w, rfl⟩ := hd
    exact hk.symm
  | number i =>
    obtain ⟨j, rfl⟩ := hd
    show t.kind = _
    rw [← hk]
    unfold Value.type
    by_cases h0 : 0 ≤ j.toInt
    · simp only [if_pos h0]; rfl
    · simp only [if_neg h0]; rfl
  | chars s => exact hd.elim
  | msg s => exact hd.elim
  | toMsg s => exact hd.elim

end Types

end Cpp

end Spec

end Rtcg
