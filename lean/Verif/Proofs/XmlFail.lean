import Verif.Model.Xml

/-
Reading a configuration never panics.
-/

namespace Rtcg.XmlFail

open Rtcg Rtcg.Xml

/-- A result or an error, not a panic. -/
def Calm {α : Type} (r : Res α) : Prop := r ≠ .error .panic

theorem calm_ok {α : Type} (a : α) : Calm (.ok a : Res α) := fun h => by cases h

theorem calm_throw {α : Type} (e : Err) : Calm (throwErr e : Res α) := fun h => by cases h

theorem calm_error {α β : Type} {r : Res α} {e : Fail} (h : Calm r) (hr : r = .error e) : Calm (.error e : Res β) := fun h' => by
  cases h'; exact h hr

theorem readName_calm (N : XmlNames) (s : Str) : Calm (readName N s) := by
  unfold readName
  simp only
  split
  · exact calm_ok _
  · exact calm_throw _

theorem readNsName_calm (N : XmlNames) (s : Str) : Calm (readNsName N s) := by
  unfold readNsName
  have := readName_calm N s
  split
  · rename_i h; exact calm_error this h
  · split
    · exact calm_throw _
    · exact calm_ok _

theorem readNumeric_calm (base : Nat) (s : Str) : Calm (readNumeric base s) := by
  unfold readNumeric
  simp only
  repeat' split
  all_goals first | exact calm_ok _ | exact calm_throw _

theorem readNamed_calm (s : Str) : Calm (readNamed s) := by
  unfold readNamed
  repeat' split
  all_goals first | exact calm_ok _ | exact calm_throw _

theorem readEntity_calm (s : Str) : Calm (readEntity s) := by
  unfold readEntity
  repeat' split
  all_goals first | exact calm_throw _ | exact readNamed_calm _ | exact readNumeric_calm _ _

theorem scanText_calm (m : Mode) (s : Str) : ∀ (b0 b1 : Option Char), Calm (scanText m b0 b1 s) := by
  induction hn : s.length using Nat.strongRecOn generalizing s with
  | _ n ih =>
    intro b0 b1
    rw [scanText.eq_def]
    cases s with
    | nil =>
      simp only
      split
      · exact calm_ok _
      · exact calm_throw _
    | cons b r =>
      simp only
      split
      · split
        · exact calm_ok _
        · exact calm_throw _
      split
      · split
        · exact calm_ok _
        · exact calm_throw _
      split
      · exact calm_ok _
      split
      · split
        · rename_i h; exact calm_error (readEntity_calm r) h
        · rename_i c r' h
          have hl := readEntity_length h
          have := ih r'.length (by simp at hn; omega) r' rfl none none
          split
          · rename_i h; exact calm_error this h
          · exact calm_ok _
      · have := ih r.length (by simp at hn; omega) r rfl b1 (some b)
        split
        · rename_i h; exact calm_error this h
        · repeat' split
          all_goals exact calm_ok _

theorem readText_calm (m : Mode) (s : Str) : Calm (readText m s) := by
  unfold readText
  have := scanText_calm m s none none
  split
  · rename_i h; exact calm_error this h
  · simp only
    repeat' split
    all_goals first | exact calm_ok _ | exact calm_throw _

theorem readProcInst_calm (N : XmlNames) (s : Str) : Calm (readProcInst N s) := by
  unfold readProcInst
  have := readName_calm N s
  split
  · rename_i h; exact calm_error this h
  · repeat' split
    all_goals first | exact calm_ok _ | exact calm_throw _

theorem readComment_calm (s : Str) : Calm (readComment s) := by
  unfold readComment
  repeat' split
  all_goals first | exact calm_ok _ | exact calm_throw _

theorem skipInner_calm (s : Str) : Calm (skipInner s) := by
  unfold skipInner
  repeat' split
  all_goals first | exact calm_ok _ | exact calm_throw _

theorem readDirective_calm (s : Str) : ∀ (q : Option Char) (d : Nat), Calm (readDirective q d s) := by
  induction hn : s.length using Nat.strongRecOn generalizing s with
  | _ n ih =>
    intro q d
    rw [readDirective.eq_def]
    cases s with
    | nil => exact calm_throw _
    | cons b r =>
      have hr := ih r.length (by simp at hn; omega) r rfl
      simp only
      split
      · exact hr _ _
      split
      · exact hr _ _
      split
      · cases d with
        | zero => exact calm_ok _
        | succ d => exact hr _ _
      split
      · exact hr _ _
      split
      · split
        · split
          · rename_i h; exact calm_error (skipInner_calm _) h
          · rename_i r' h
            have hl := skipInner_length h
            exact ih r'.length (by simp at hn hl; omega) r' rfl _ _
        · exact hr _ _
      · exact hr _ _

theorem readValue_calm (s : Str) : Calm (readValue s) := by
  unfold readValue
  repeat' split
  all_goals first | exact calm_throw _ | exact readText_calm _ _

theorem readAttr_calm (N : XmlNames) (s : Str) : Calm (readAttr N s) := by
  unfold readAttr
  have := readNsName_calm N s
  split
  · rename_i h; exact calm_error this h
  · split
    · exact calm_throw _
    · split
      · exact calm_throw _
      · split
        · rename_i h; exact calm_error (readValue_calm _) h
        · exact calm_ok _

theorem readAttrs_calm (N : XmlNames) (fuel : Nat) : ∀ s, Calm (readAttrs N fuel s) := by
  induction fuel with
  | zero => intro s; exact calm_throw _
  | succ fuel ih =>
    intro s
    unfold readAttrs
    split
    · exact calm_throw _
    · split
      · repeat' split
        all_goals first | exact calm_ok _ | exact calm_throw _
      · split
        · exact calm_ok _
        · split
          · rename_i h; exact calm_error (readAttr_calm _ _) h
          · split
            · rename_i h; exact calm_error (ih _) h
            · exact calm_ok _

theorem readStop_calm (N : XmlNames) (s : Str) : Calm (readStop N s) := by
  unfold readStop
  split
  · rename_i h; exact calm_error (readNsName_calm _ _) h
  · repeat' split
    all_goals first | exact calm_ok _ | exact calm_throw _

theorem readStart_calm (N : XmlNames) (s : Str) : Calm (readStart N s) := by
  unfold readStart
  split
  · rename_i h; exact calm_error (readNsName_calm _ _) h
  · split
    · rename_i h; exact calm_error (readAttrs_calm _ _ _) h
    · exact calm_ok _

theorem readBang_calm (s : Str) : Calm (readBang s) := by
  unfold readBang
  split
  · exact calm_throw _
  split
  · split
    · exact calm_throw _
    · split
      · exact calm_throw _
      · split
        · rename_i h; exact calm_error (readComment_calm _) h
        · exact calm_ok _
  split
  · split
    · split
      · rename_i h; exact calm_error (readText_calm _ _) h
      · exact calm_ok _
    · exact calm_throw _
  · split
    · rename_i h; exact calm_error (readDirective_calm _ _ _) h
    · exact calm_ok _

theorem readToken_calm (N : XmlNames) (s : Str) : Calm (readToken N s) := by
  unfold readToken
  split
  · exact calm_throw _
  split
  · split
    · rename_i h; exact calm_error (readText_calm _ _) h
    · exact calm_ok _
  split
  · exact calm_throw _
  split
  · exact readStop_calm _ _
  split
  · split
    · rename_i h; exact calm_error (readProcInst_calm _ _) h
    · exact calm_ok _
  split
  · exact readBang_calm _
  · exact readStart_calm _ _

theorem readContent_calm (N : XmlNames) (fuel : Nat) : ∀ s, Calm (readContent N fuel s) := by
  induction fuel with
  | zero => intro s; exact calm_throw _
  | succ fuel ih =>
    intro s
    unfold readContent
    split
    · rename_i h; exact calm_error (readToken_calm _ _) h
    · split
      · rename_i h; exact calm_error (ih _) h
      · exact calm_ok _
    · exact ih _
    · exact calm_ok _
    · split
      · rename_i h; exact calm_error (ih _) h
      · exact calm_ok _
    · split
      · rename_i h; exact calm_error (ih _) h
      · split
        · exact calm_throw _
        · split
          · rename_i h; exact calm_error (ih _) h
          · exact calm_ok _

theorem parseFrom_calm (N : XmlNames) (fuel : Nat) : ∀ s, Calm (parseFrom N fuel s) := by
  induction fuel with
  | zero => intro s; exact calm_throw _
  | succ fuel ih =>
    intro s
    unfold parseFrom
    split
    · exact calm_throw _
    split
    · rename_i h; exact calm_error (readToken_calm _ _) h
    · exact ih _
    · exact ih _
    · exact calm_throw _
    · exact calm_ok _
    · split
      · rename_i h; exact calm_error (readContent_calm _ _ _) h
      · split
        · exact calm_throw _
        · exact calm_ok _

/-! ### decoding -/

theorem each_calm {α β : Type} {f : α → β → Res α} (h : ∀ a b, Calm (f a b)) (bs : List β) : ∀ a, Calm (each f a bs) := by
  induction bs with
  | nil => intro a; exact calm_ok _
  | cons b bs ih =>
    intro a
    unfold each
    split
    · rename_i h'; exact calm_error (h _ _) h'
    · exact ih _

theorem decodeInt_calm (s : Str) : Calm (decodeInt s) := by
  unfold decodeInt
  repeat' split
  all_goals first | exact calm_ok _ | exact calm_throw _

theorem decodeBool_calm (s : Str) : Calm (decodeBool s) := by
  unfold decodeBool
  repeat' split
  all_goals first | exact calm_ok _ | exact calm_throw _

theorem includeAttr_calm (i : CppConfig.Include) (a : Str × Str) : Calm (includeAttr i a) := by
  unfold includeAttr
  split
  · exact calm_ok _
  split
  · split
    · rename_i h; exact calm_error (decodeBool_calm _) h
    · exact calm_ok _
  · exact calm_ok _

theorem channelAttr_calm (i : CppConfig.Channel) (a : Str × Str) : Calm (channelAttr i a) := by
  unfold channelAttr
  repeat' split
  all_goals exact calm_ok _

theorem maintainerAttr_calm (i : Catkin.Maintainer) (a : Str × Str) : Calm (maintainerAttr i a) := by
  unfold maintainerAttr
  repeat' split
  all_goals exact calm_ok _

theorem packageAttr_calm (i : Catkin.Package) (a : Str × Str) : Calm (packageAttr i a) := by
  unfold packageAttr
  split
  · split
    · rename_i h; exact calm_error (decodeInt_calm _) h
    · exact calm_ok _
  · exact calm_ok _

theorem packageChild_calm (p : Catkin.Package) (x : Xml) : Calm (packageChild p x) := by
  unfold packageChild
  repeat' split
  all_goals first | exact calm_ok _ | (rename_i h; exact calm_error (each_calm maintainerAttr_calm _ _) h)

theorem decodePackage_calm (p : Catkin.Package) (attrs : List (Str × Str)) (kids : List Xml) : Calm (decodePackage p attrs kids) := by
  unfold decodePackage
  split
  · rename_i h; exact calm_error (each_calm packageAttr_calm _ _) h
  · exact each_calm packageChild_calm _ _

theorem catkinChild_calm (c : Option Catkin.Package) (x : Xml) : Calm (catkinChild c x) := by
  unfold catkinChild
  repeat' split
  all_goals first | exact calm_ok _ | (rename_i h; exact calm_error (decodePackage_calm _ _ _) h)

theorem variant_calm (s : Str) : Calm (Variant.parse s) := by
  unfold Variant.parse EnumTables.parse
  repeat' split
  all_goals first | exact calm_ok _ | exact calm_throw _ | (intro h; simp [Except.map] at h)

theorem cppAttr_calm (c : CppConfig.Config) (a : Str × Str) : Calm (cppAttr c a) := by
  unfold cppAttr
  split
  · split
    · rename_i h; exact calm_error (variant_calm _) h
    · exact calm_ok _
  · exact calm_ok _

theorem cppChild_calm (c : CppConfig.Config) (x : Xml) : Calm (cppChild c x) := by
  unfold cppChild
  repeat' split
  all_goals first
    | exact calm_ok _
    | (rename_i h; exact calm_error (each_calm includeAttr_calm _ _) h)
    | (rename_i h; exact calm_error (each_calm channelAttr_calm _ _) h)
    | (rename_i h; exact calm_error (each_calm catkinChild_calm _ _) h)

theorem decodeCpp_calm (attrs : List (Str × Str)) (kids : List Xml) : Calm (decodeCpp attrs kids) := by
  unfold decodeCpp
  split
  · rename_i h; exact calm_error (each_calm cppAttr_calm _ _) h
  · exact each_calm cppChild_calm _ _

theorem configChild_calm (c : GenConfig) (x : Xml) : Calm (configChild c x) := by
  unfold configChild
  repeat' split
  all_goals first | exact calm_ok _ | (rename_i h; exact calm_error (decodeCpp_calm _ _) h)

theorem parseConfig_calm (N : XmlNames) (s : Str) : Calm (parseConfig N s) := by
  unfold parseConfig
  split
  · rename_i h; exact calm_error (parseFrom_calm _ _ _) h
  · unfold decodeConfig
    repeat' split
    all_goals first | exact calm_throw _ | exact each_calm configChild_calm _ _

/-- Reading a configuration fails with an error, if it fails. -/
theorem parseConfig_fails {N : XmlNames} {s : Str} {e : Fail} (h : parseConfig N s = .error e) : ∃ x, e = .err x := by
  cases e with
  | err x => exact ⟨x, rfl⟩
  | panic => exact absurd h (parseConfig_calm N s)

end Rtcg.XmlFail
