import Verif.Spec.CppTypes
import Verif.Proofs.CppPreWords
import Verif.Proofs.StmTypes

/-
Which functions of convert.h are right about types.
-/

namespace Rtcg

namespace Spec

namespace Cpp

namespace Types

open Templates Rtcg.Cpp Tmpl Tree Pre

variable {U : Unicode} {v : Variant} {τ : Str → Option CType}

theorem typeE_eq (t : RsType) : typeE t = cppType t := rfl

theorem isArithmos_iff (t : RsType) (d : Domain) : t.isArithmos d = true ↔ t.kind = .arithmos ∧ t.domain = d := by
  unfold RsType.isArithmos
  by_cases h : t.kind = .arithmos
  · rw [if_neg (fun h' => h' h)]
    simp [h]
  · rw [if_pos h]
    simp [h]

/-- The cases of the type of a channel -/
theorem cppType_cases (t : RsType) : (t.isEnum = true ∧ cppType t = ⟨false, [c!"std", c!"string"], []⟩) ∨
    (t.isEnum = false ∧ (cppType t = ⟨false, [c!"unsigned int"], []⟩ ∨ cppType t = ⟨false, [c!"int"], []⟩ ∨ cppType t = ⟨false, [c!"double"], []⟩) ∧
      t.kind = .arithmos ∧ t.domain ∈ [Domain.nat, .int, .real]) ∨
    (t.isEnum = false ∧ cppType t = ⟨false, [c!"void"], [c!"*"]⟩ ∧ ¬ (t.kind = .arithmos ∧ t.domain ∈ [Domain.nat, .int, .real])) := by
  unfold cppType
  by_cases h1 : t.isEnum = true
  · exact .inl ⟨h1, if_pos h1⟩
  rw [if_neg h1]
  have h1' : t.isEnum = false := by simpa using h1
  by_cases h2 : t.isNat = true
  · obtain ⟨a, b⟩ := (isArithmos_iff t _).1 h2
    exact .inr (.inl ⟨h1', .inl (if_pos h2), a, by rw [b]; simp⟩)
  rw [if_neg h2]
  by_cases h3 : t.isInt = true
  · obtain ⟨a, b⟩ := (isArithmos_iff t _).1 h3
    exact .inr (.inl ⟨h1', .inr (.inl (if_pos h3)), a, by rw [b]; simp⟩)
  rw [if_neg h3]
  by_cases h4 : t.isReal = true
  · obtain ⟨a, b⟩ := (isArithmos_iff t _).1 h4
    exact .inr (.inl ⟨h1', .inr (.inr (if_pos h4)), a, by rw [b]; simp⟩)
  rw [if_neg h4]
  refine .inr (.inr ⟨h1', rfl, ?_⟩)
  rintro ⟨a, b⟩
  simp only [List.mem_cons, List.not_mem_nil, or_false] at b
  rcases b with b | b | b
  · exact h2 ((isArithmos_iff t _).2 ⟨a, b⟩)
  · exact h3 ((isArithmos_iff t _).2 ⟨a, b⟩)
  · exact h4 ((isArithmos_iff t _).2 ⟨a, b⟩)

theorem isEnum_iff (t : RsType) : t.isEnum = true ↔ t.kind = .enum := by unfold RsType.isEnum; simp

/-- The words of default types stand for themselves -/
theorem subst_cpp (hτ : ∀ w, safe w = true → τ w = none) (t : RsType) (k : Bool) :
    substT τ { cppType t with const := k } = { cppType t with const := k } := by
  rcases cppType_cases t with ⟨_, h⟩ | ⟨_, h | h | h, _⟩ | ⟨_, h, _⟩ <;> rw [h] <;> unfold substT
  · rfl
  · simp only [hτ c!"unsigned int" (by decide)]
  · simp only [hτ c!"int" (by decide)]
  · simp only [hτ c!"double" (by decide)]
  · simp only [hτ c!"void" (by decide)]

theorem cppType_const (t : RsType) : { cppType t with const := false } = cppType t := by
  rcases cppType_cases t with ⟨_, h⟩ | ⟨_, h | h | h, _⟩ | ⟨_, h, _⟩ <;> rw [h]

theorem subst_base (hτ : ∀ w, safe w = true → τ w = none) (t : RsType) : substT τ (cppType t) = cppType t := by
  have := subst_cpp hτ t false
  rwa [cppType_const] at this

theorem subst_word {w : Str} {s : CType} (h : τ w = some s) (k : Bool) : substT τ ⟨k, [w], []⟩ = ⟨k, s.name, s.ptr⟩ := by
  unfold substT
  simp only [h, List.append_nil]

theorem fits_copy (t : RsType) : fits ⟨true, (cppType t).name, (cppType t).ptr⟩ (cppType t) = true ↔ Convertible .animate t := by
  unfold Convertible
  rcases cppType_cases t with ⟨h1, h⟩ | ⟨h1, h, h2⟩ | ⟨h1, h, h2⟩
  · rw [h]
    exact ⟨fun _ => .inl ((isEnum_iff t).1 h1), fun _ => by decide⟩
  · refine ⟨fun _ => .inr ⟨rfl, h2⟩, fun _ => ?_⟩
    rcases h with h | h | h <;> rw [h] <;> decide
  · rw [h]
    refine ⟨fun h => absurd h (by decide), ?_⟩
    rintro (h3 | ⟨_, h3⟩)
    · rw [(isEnum_iff t).2 h3] at h1; cases h1
    · exact absurd h3 h2

theorem ros_iff (t : RsType) : Convertible .ros t ↔ t.isEnum = true := by
  rw [isEnum_iff]
  unfold Convertible
  exact ⟨fun h => h.elim id (fun h => absurd h.1 (by decide)), .inl⟩

theorem from_typed {ch : Str} {ct : CppConfig.ChannelType} {t : RsType} (hv : v = .animate ∨ v = .ros) (hτ : ∀ w, safe w = true → τ w = none)
    (hm : τ (channelMsgType U ch) = some (msgOf v (defaultType v t))) (hb : ct.base = some t) (ho : ct.hasOverride = false) :
    functionTyped (substItem τ (fromItem U v (ch, ct))) = true ↔ Convertible v t := by
  have hbase : baseTy ct = cppType t := by unfold baseTy; rw [hb]; rfl
  show functionTyped (.fn (some (substT τ (baseTy ct))) [convertFrom U ch] [(substT τ ⟨true, [channelMsgType U ch], []⟩, c!"msg")]
    ((if ct.hasOverride then none else some (stmtsOf (fromStmts v ct))).map (substSs τ))) = true ↔ _
  rw [hbase, subst_base hτ, subst_word hm, ho, if_neg (by decide)]
  rcases hv with rfl | rfl
  · rw [← fits_copy]
    show (fits ⟨true, (msgOf .animate (defaultType .animate t)).name, _⟩ (cppType t) && true) = true ↔ _
    rw [Bool.and_true]
    rfl
  · rw [ros_iff]
    have hmsg : msgOf .ros (defaultType .ros t) = ⟨false, [c!"std_msgs", c!"String", c!"ConstPtr"], [c!"&"]⟩ := rfl
    rw [hmsg]
    cases he : t.isEnum with
    | true =>
      have h : cppType t = ⟨false, [c!"std", c!"string"], []⟩ := by unfold cppType; rw [if_pos he]
      have hf : fromStmts .ros ct =
          [.retVal (call [c!"std", c!"string"] [.post (nm c!"msg") (.arrow c!"data" (.dot c!"c_str" (.call .nil .nil)))])] := by
        unfold fromStmts
        rw [if_pos rfl, hb, Option.any_some, he, if_pos rfl]
      rw [h, hf]
      exact ⟨fun _ => rfl, fun _ => rfl⟩
    | false =>
      have hf : fromStmts .ros ct = [.retVal (.post (nm c!"msg") (.arrow c!"data" .nil))] := by
        unfold fromStmts
        rw [if_pos rfl, hb, Option.any_some, he, if_neg (by decide)]
      rw [hf]
      refine ⟨fun hh => ?_, fun h => absurd h (by decide)⟩
      rcases cppType_cases t with ⟨h1, h⟩ | ⟨_, h | h | h, _⟩ | ⟨_, h, _⟩
      · rw [he] at h1; cases h1
      · rw [h] at hh; exact absurd (show false = true from hh) (by decide)
      · rw [h] at hh; exact absurd (show false = true from hh) (by decide)
      · rw [h] at hh; exact absurd (show false = true from hh) (by decide)
      · rw [h] at hh; exact absurd (show false = true from hh) (by decide)

theorem to_typed {ch : Str} {ct : CppConfig.ChannelType} {t : RsType} (hv : v = .animate ∨ v = .ros) (hτ : ∀ w, safe w = true → τ w = none)
    (hm : τ (channelValueType U ch) = some (defaultType v t)) (hb : ct.base = some t) (ho : ct.hasOverride = false) :
    functionTyped (substItem τ (toItem U v (ch, ct))) = true ↔ Convertible v t := by
  have hbase : baseTy ct = cppType t := by unfold baseTy; rw [hb]; rfl
  show functionTyped (.fn (some (substT τ (ty [channelValueType U ch]))) [convertTo U ch] [(substT τ { baseTy ct with const := true }, c!"value")]
    ((if ct.hasOverride then none else some (stmtsOf (toStmts v ct))).map (substSs τ))) = true ↔ _
  rw [hbase, subst_cpp hτ, ho, if_neg (by decide), show ty [channelValueType U ch] = ⟨false, [channelValueType U ch], []⟩ from rfl, subst_word hm]
  rcases hv with rfl | rfl
  · rw [← fits_copy]
    show (fits ⟨true, (cppType t).name, (cppType t).ptr⟩ { cppType t with const := false } && true) = true ↔ _
    rw [Bool.and_true, cppType_const]
  · rw [ros_iff]
    have hmsg : defaultType .ros t = ⟨false, [c!"std_msgs", c!"String"], []⟩ := rfl
    rw [hmsg]
    cases he : t.isEnum with
    | true =>
      have h : cppType t = ⟨false, [c!"std", c!"string"], []⟩ := by unfold cppType; rw [if_pos he]
      have hf : toStmts .ros ct = [.decl (ty [c!"std_msgs", c!"String"]) c!"msg",
          .expr (.assign (.post (nm c!"msg") (.dot c!"data" .nil)) (mcall c!"value" c!"c_str" [])), .retVal (nm c!"msg")] := by
        unfold toStmts
        rw [if_pos rfl, hb, Option.any_some, he, if_pos rfl]
      rw [h, hf]
      exact ⟨fun _ => rfl, fun _ => rfl⟩
    | false =>
      have hf : toStmts .ros ct = [.retVal (nm c!"value")] := by
        unfold toStmts
        rw [if_pos rfl, hb, Option.any_some, he, if_neg (by decide)]
      rw [hf]
      refine ⟨fun hh => ?_, fun h => absurd h (by decide)⟩
      rcases cppType_cases t with ⟨h1, h⟩ | ⟨_, h | h | h, _⟩ | ⟨_, h, _⟩
      · rw [he] at h1; cases h1
      · rw [h] at hh; exact absurd (show false = true from hh) (by decide)
      · rw [h] at hh; exact absurd (show false = true from hh) (by decide)
      · rw [h] at hh; exact absurd (show false = true from hh) (by decide)
      · rw [h] at hh; exact absurd (show false = true from hh) (by decide)

theorem declared_typed {e : Str × CppConfig.ChannelType} (ho : e.2.hasOverride = true) :
    functionTyped (substItem τ (fromItem U v e)) = true ∧ functionTyped (substItem τ (toItem U v e)) = true := by
  constructor
  · show functionTyped (.fn (some _) [convertFrom U e.1] _ ((if e.2.hasOverride then none else some (stmtsOf (fromStmts v e.2))).map (substSs τ))) = true
    rw [if_pos ho]
    rfl
  · show functionTyped (.fn (some _) [convertTo U e.1] _ ((if e.2.hasOverride then none else some (stmtsOf (toStmts v e.2))).map (substSs τ))) = true
    rw [if_pos ho]
    rfl

/-- The least type above those of values -/
theorem convertible_lub {w : Variant} {S : RsType → Prop} {t : RsType} (hS : ∀ ty, S ty → ∃ v : Value, ty = v.type) (hl : LeastUpper S t)
    {v : Value} (h : S v.type) : Convertible w t ↔ ConvertsByDefault w v := by
  have hk : v.type.kind = t.kind := SubType.kind (hl.1 _ h)
  cases v with
  | none =>
    rw [show (Value.none).type.kind = RsType.empty.kind from rfl] at hk
    refine ⟨fun h => ?_, fun h => h.elim⟩
    rcases h with h | ⟨_, h, _⟩ <;> (rw [← hk] at h; exact absurd h (by decide))
  | enum s =>
    refine ⟨fun _ => trivial, fun _ => .inl ?_⟩
    rw [← hk]
    rfl
  | int i =>
    have hi : (Value.int i).type = RsType.arithmos .nat ∨ (Value.int i).type = RsType.arithmos .int := by
      unfold Value.type
      by_cases h0 : 0 ≤ i.toInt
      · exact .inl (if_pos h0)
      · exact .inr (if_neg h0)
    have hk1 : (Value.int i).type.kind = .arithmos := by rcases hi with h | h <;> rw [h] <;> rfl
    rw [hk1] at hk
    constructor
    · intro h
      rcases h with h | ⟨h, _⟩
      · rw [← hk] at h; exact absurd h (by decide)
      · exact h
    · intro hw
      refine .inr ⟨hw, hk.symm, ?_⟩
      have low : (1 : UInt8) ≤ t.domain.val := by
        rcases hl.1 _ h with e | ⟨_, _, e⟩
        · rw [← e]; rcases hi with h | h <;> rw [h] <;> decide
        · rcases hi with h | h <;> rw [h] at e
          · exact e
          · exact UInt8.le_trans (by decide) e
      have high : t.domain.val ≤ (2 : UInt8) := by
        have : SubType t (RsType.arithmos .int) := by
          refine hl.2 _ ?_
          intro x hx
          have hxk := SubType.kind (hl.1 _ hx)
          obtain ⟨v, rfl⟩ := hS x hx
          cases v with
          | none => rw [← hk] at hxk; exact absurd hxk (by decide)
          | enum s => rw [← hk, show (Value.enum s).type = RsType.enum from rfl] at hxk; exact absurd hxk (by decide)
          | int j =>
            unfold Value.type
            by_cases h0 : 0 ≤ j.toInt
            · simp only [if_pos h0]
              exact .inr ⟨rfl, rfl, by decide⟩
            · simp only [if_neg h0]
              exact .inl rfl
        rcases this with e | ⟨_, _, e⟩
        · rw [e]; decide
        · exact e
      have : t.domain = ⟨1⟩ ∨ t.domain = ⟨2⟩ := by
        obtain ⟨k, ⟨d⟩⟩ := t
        simp only at low high
        have h1 : 1 ≤ d.toNat := low
        have h2 : d.toNat ≤ 2 := high
        rcases (by omega : d.toNat = 1 ∨ d.toNat = 2) with h | h
        · left; exact congrArg _ (UInt8.toNat_inj.1 (h.trans (by decide)))
        · right; exact congrArg _ (UInt8.toNat_inj.1 (h.trans (by decide)))
      rcases this with h | h <;> rw [h] <;> decide

end Types

end Cpp

end Spec

end Rtcg
