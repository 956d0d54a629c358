import Verif.Proofs.XmlFail
import Verif.Proofs.JsonMissing
import Verif.Props.Programs

/-
Nothing but nil pointers makes the programs panic.
-/

namespace Rtcg.CalmProofs

open Rtcg XmlFail Json

theorem calm_map {α β : Type} {r : Res α} {f : α → β} (h : Calm r) : Calm (r.map f) := by
  cases r with
  | ok a => exact calm_ok _
  | error e => exact calm_error (β := β) h rfl

/-! ### JSON texts -/

theorem readString_calm (s : Str) : Calm (readString s) := by
  unfold readString
  repeat' split
  all_goals first | exact calm_ok _ | exact calm_throw _

theorem readNumber_calm (s : Str) : Calm (readNumber s) := by
  unfold readNumber
  repeat' split
  all_goals first | exact calm_ok _ | exact calm_throw _

theorem readLiteral_calm (s : Str) : Calm (readLiteral s) := by
  unfold readLiteral
  repeat' split
  all_goals first | exact calm_ok _ | exact calm_throw _

theorem readKey_calm (s : Str) : Calm (readKey s) := by
  unfold readKey
  repeat' split
  all_goals first | exact calm_ok _ | exact calm_throw _ | (rename_i h; exact calm_error (readString_calm _) h)

theorem read_calm (n : Nat) : ∀ d s, Calm (readValue n d s) ∧ Calm (readElems n d s) ∧ Calm (readFields n d s) := by
  induction n with
  | zero => intro d s; exact ⟨calm_throw _, calm_throw _, calm_throw _⟩
  | succ n ih =>
    intro d s
    refine ⟨?_, ?_, ?_⟩
    · rw [readValue.eq_def]
      simp only
      repeat' split
      all_goals first
        | exact calm_ok _ | exact calm_throw _ | exact readNumber_calm _ | exact readLiteral_calm _
        | (rename_i h; first | exact calm_error (ih _ _).2.2 h | exact calm_error (ih _ _).2.1 h | exact calm_error (readString_calm _) h)
    · rw [readElems.eq_def]
      simp only
      repeat' split
      all_goals first
        | exact calm_ok _ | exact calm_throw _
        | (rename_i h; first | exact calm_error (ih _ _).1 h | exact calm_error (ih _ _).2.1 h)
    · rw [readFields.eq_def]
      simp only
      repeat' split
      all_goals first
        | exact calm_ok _ | exact calm_throw _
        | (rename_i h; first | exact calm_error (ih _ _).1 h | exact calm_error (ih _ _).2.2 h | exact calm_error (readKey_calm _) h)

theorem parse_calm (s : Str) : Calm (Json.parse s) := by
  unfold Json.parse
  repeat' split
  all_goals first | exact calm_ok _ | exact calm_throw _ | (rename_i h; exact calm_error (read_calm _ _ _).1 h)

theorem write_calm (j : Json) : Calm (Json.write j) := by
  unfold Json.write
  split
  · exact calm_ok _
  · exact calm_throw _

/-! ### decoding -/

theorem tables_calm (t : EnumTables) (s : Str) : Calm (t.parse s) := by
  unfold EnumTables.parse
  repeat' split
  all_goals first | exact calm_ok _ | exact calm_throw _

theorem kind_calm (s : Str) : Calm (Kind.parse s) := calm_map (tables_calm _ _)

theorem outcome_calm (s : Str) : Calm (Outcome.parse s) := calm_map (tables_calm _ _)

theorem remainder_calm (c : Channel) (s : Str) : Calm (Channel.unmarshalTextWithRemainder c s).2 := by
  unfold Channel.unmarshalTextWithRemainder
  repeat' split
  all_goals first | exact calm_ok _ | exact calm_throw _ | (rename_i h; exact calm_error (kind_calm _) h) | skip
  all_goals
    simp only
    split
    · rename_i h; exact calm_error (kind_calm _) h
    · exact calm_ok _

theorem value_calm (s : Str) : Calm (Value.unmarshalText s) := by
  unfold Value.unmarshalText
  simp only
  split
  · exact calm_ok _
  · exact calm_throw _

theorem decodeStr_calm (o : Str) (j : Json) : Calm (decodeStr o j) := by
  unfold decodeStr
  split
  all_goals first | exact calm_ok _ | exact calm_throw _

theorem decodeElems_calm {α : Type} {dec : Json → Res α} (h : ∀ j, Calm (dec j)) (xs : List Json) : Calm (decodeElems dec xs) := by
  induction xs with
  | nil => exact calm_ok _
  | cons x xs ih =>
    rw [decodeElems]
    split
    · rename_i e; exact calm_error (h x) e
    · split
      · rename_i e; exact calm_error ih e
      · exact calm_ok _

theorem decodeList_calm {α : Type} {dec : Json → Res α} (h : ∀ j, Calm (dec j)) (j : Json) : Calm (decodeList dec j) := by
  unfold decodeList
  split
  all_goals first | exact calm_ok _ | exact calm_throw _ | exact decodeElems_calm h _

theorem decodeEntries_calm {α : Type} {dec : Json → Res α} (h : ∀ j, Calm (dec j)) (fs : List (Str × Json)) :
    ∀ m, Calm (decodeEntries dec m fs) := by
  induction fs with
  | nil => intro m; exact calm_ok _
  | cons f fs ih =>
    intro m
    rw [decodeEntries]
    split
    · rename_i e; exact calm_error (h _) e
    · exact ih _

theorem decodeMap_calm {α : Type} {dec : Json → Res α} (h : ∀ j, Calm (dec j)) (j : Json) : Calm (decodeMap dec j) := by
  unfold decodeMap
  split
  all_goals first | exact calm_ok _ | exact calm_throw _ | exact decodeEntries_calm h _ _

theorem decodeFields_calm {σ : Type} {dec : σ → Str → Json → Res σ} (h : ∀ s k j, Calm (dec s k j)) (fs : List (Str × Json)) :
    ∀ s, Calm (decodeFields dec s fs) := by
  induction fs with
  | nil => intro m; exact calm_ok _
  | cons f fs ih =>
    intro m
    rw [decodeFields]
    split
    · rename_i e; exact calm_error (h _ _ _) e
    · exact ih _

theorem decodeStruct_calm {σ : Type} {dec : σ → Str → Json → Res σ} (h : ∀ s k j, Calm (dec s k j)) (s : σ) (j : Json) :
    Calm (decodeStruct dec s j) := by
  unfold decodeStruct
  split
  all_goals first | exact calm_ok _ | exact calm_throw _ | exact decodeFields_calm h _ _

theorem decodeOutcome_calm (o : Outcome) (j : Json) : Calm (decodeOutcome o j) := by
  unfold decodeOutcome
  split
  all_goals first | exact calm_ok _ | exact calm_throw _ | exact outcome_calm _

theorem event_calm {e e' : Event} {s : Str} {f : Fail} (h : Event.unmarshalText e s = (e', some f)) : f ≠ .panic := by
  unfold Event.unmarshalText at h
  have hc := remainder_calm e.channel s
  split at h
  · rename_i hr
    rw [hr] at hc
    cases h
    rintro rfl
    exact hc rfl
  · cases h
  · split at h
    · rename_i hv
      cases h
      rintro rfl
      exact value_calm _ hv
    · cases h

theorem decodeEvent_calm (o : Option Event) (j : Json) : Calm (decodeEvent o j) := by
  unfold decodeEvent
  split
  · exact calm_ok _
  · split
    · exact calm_ok _
    · rename_i h
      intro h'
      cases h'
      exact event_calm h rfl
  · exact calm_throw _

theorem decodeChannel_calm (c : Channel) (j : Json) : Calm (decodeChannel c j) := by
  unfold decodeChannel
  split
  · exact calm_ok _
  · rename_i s
    have hc := remainder_calm c s
    unfold Channel.unmarshalText
    cases hr : Channel.unmarshalTextWithRemainder c s with
    | mk a r =>
      rw [hr] at hc
      cases r with
      | ok r => exact calm_ok _
      | error e => exact calm_error (β := Channel) hc rfl
  · exact calm_throw _

theorem decodeValue_calm (o : Value) (j : Json) : Calm (decodeValue o j) := by
  unfold decodeValue
  split
  all_goals first | exact calm_ok _ | exact calm_throw _ | exact value_calm _

theorem rsType_calm (s : Str) : Calm (RsType.unmarshalText s) := by
  unfold RsType.unmarshalText
  simp only
  repeat' split
  all_goals first | exact calm_ok _ | exact calm_throw _

theorem decodeType_calm (j : Json) : Calm (decodeType j) := by
  unfold decodeType
  repeat' split
  all_goals first | exact calm_ok _ | exact calm_throw _ | (rename_i h; exact calm_error (rsType_calm _) h)

mutual
theorem decodeNode_calm : ∀ j, Calm (decodeNode j)
  | .null => calm_ok _
  | .obj fs => by rw [decodeNode]; exact decodeNodeFields_calm fs _
  | .bool _ => calm_throw _
  | .num _ => calm_throw _
  | .str _ => calm_throw _
  | .arr _ => calm_throw _
theorem decodeNodeFields_calm : ∀ (fs : List (Str × Json)) (n : Node), Calm (decodeNodeFields n fs)
  | [], _ => calm_ok _
  | f :: fs, n => by
    rw [decodeNodeFields]
    split
    · rename_i h; exact calm_error (decodeNodeField_calm f n) h
    · exact decodeNodeFields_calm fs _
theorem decodeNodeField_calm : ∀ (f : Str × Json) (n : Node), Calm (decodeNodeField n f)
  | (k, j), n => by
    rw [decodeNodeField]
    repeat' split
    all_goals first
      | exact calm_ok _ | exact calm_map (decodeStr_calm _ _) | exact calm_map (decodeList_calm (decodeStr_calm _) _)
      | exact calm_map (decodeOutcome_calm _ _) | exact calm_map (decodeEvent_calm _ _) | exact calm_map (decodeNodeList_calm j)
theorem decodeNodeList_calm : ∀ j, Calm (decodeNodeList j)
  | .null => calm_ok _
  | .arr xs => by rw [decodeNodeList]; exact decodeNodes_calm xs
  | .bool _ => calm_throw _
  | .num _ => calm_throw _
  | .str _ => calm_throw _
  | .obj _ => calm_throw _
theorem decodeNodes_calm : ∀ xs, Calm (decodeNodes xs)
  | [] => calm_ok _
  | j :: js => by
    rw [decodeNodes]
    split
    · rename_i h; exact calm_error (decodeNode_calm j) h
    · split
      · rename_i h; exact calm_error (decodeNodes_calm js) h
      · exact calm_ok _
end

theorem decodeNodePtr_calm (j : Json) : Calm (decodeNodePtr j) := by
  unfold decodeNodePtr
  split
  · exact calm_ok _
  · exact calm_map (decodeNode_calm _)

theorem decodeSuite_calm (j : Json) : Calm (decodeSuite j) := decodeMap_calm decodeNodePtr_calm j

theorem decodeTransition_calm (j : Json) : Calm (decodeTransition j) := by
  refine decodeStruct_calm (fun s k j => ?_) _ _
  unfold decodeTransitionField
  repeat' split
  all_goals first | exact calm_ok _ | exact calm_map (decodeValue_calm _ _) | exact calm_map (decodeStr_calm _ _)

theorem decodeTSet_calm (j : Json) : Calm (decodeTSet j) := by
  refine decodeStruct_calm (fun s k j => ?_) _ _
  unfold decodeTSetField
  repeat' split
  all_goals first | exact calm_ok _ | exact calm_map (decodeChannel_calm _ _) | exact calm_map (decodeList_calm decodeTransition_calm _)

theorem decodeVerdict_calm (j : Json) : Calm (decodeVerdict j) := by
  have hl : ∀ (m : GoMap Str Str) v, Calm (decodeVerdictLoop v m) := by
    intro m
    induction m with
    | nil => intro v; exact calm_ok _
    | cons x m ih =>
      intro v
      obtain ⟨k, s⟩ := x
      rw [decodeVerdictLoop]
      split
      · rename_i h; exact calm_error (outcome_calm _) h
      · exact ih _
  unfold decodeVerdict
  split
  · rename_i h; exact calm_error (decodeMap_calm (decodeStr_calm _) _) h
  · exact hl _ _

theorem decodeState_calm (j : Json) : Calm (decodeState j) := by
  unfold decodeState
  split
  · exact calm_ok _
  · refine decodeFields_calm (fun s k j => ?_) _ _
    unfold decodeStateField
    repeat' split
    all_goals first
      | exact calm_ok _ | exact calm_map (decodeStr_calm _ _) | exact calm_map (decodeList_calm decodeTSet_calm _)
      | exact calm_map (decodeVerdict_calm _)
  · exact calm_throw _

theorem decodeStm_calm (j : Json) : Calm (decodeStm j) := by
  unfold decodeStm
  split
  · exact calm_ok _
  · refine decodeFields_calm (fun s k j => ?_) _ _
    unfold decodeStmField
    repeat' split
    all_goals first
      | exact calm_ok _ | exact calm_map (decodeMap_calm decodeType_calm _) | exact calm_map (decodeList_calm decodeState_calm _)
      | exact calm_map (calm_map (decodeList_calm (decodeStr_calm _) _))
  · exact calm_throw _

theorem decodeStmSuite_calm (j : Json) : Calm (decodeStmSuite j) := by
  refine decodeStruct_calm (fun s k j => ?_) _ _
  unfold decodeStmSuiteField
  repeat' split
  all_goals first
    | exact calm_ok _ | exact calm_map (decodeMap_calm decodeType_calm _) | exact calm_map (decodeMap_calm decodeStm_calm _)

/-! ### encoding -/

theorem encodeEntries_calm {α : Type} {enc : α → Res Json} (h : ∀ a, Calm (enc a)) (m : GoMap Str α) : Calm (encodeEntries enc m) := by
  induction m with
  | nil => exact calm_ok _
  | cons x m ih =>
    obtain ⟨k, a⟩ := x
    rw [encodeEntries]
    split
    · rename_i e; exact calm_error (h a) e
    · split
      · rename_i e; exact calm_error ih e
      · exact calm_ok _

theorem encodeMap_calm {α : Type} {enc : α → Res Json} (h : ∀ a, Calm (enc a)) (m : GoMap Str α) : Calm (encodeMap enc m) :=
  calm_map (encodeEntries_calm h m)

theorem encodeElems_calm {α : Type} {enc : α → Res Json} (h : ∀ a, Calm (enc a)) (m : List α) : Calm (encodeElems enc m) := by
  induction m with
  | nil => exact calm_ok _
  | cons a m ih =>
    rw [encodeElems]
    split
    · rename_i e; exact calm_error (h a) e
    · split
      · rename_i e; exact calm_error ih e
      · exact calm_ok _

theorem valueText_calm (v : Value) : Calm v.marshalText := by
  cases v with
  | none => exact calm_throw _
  | int i => exact calm_ok _
  | enum s => exact calm_ok _

theorem encodeTransition_calm (t : Transition) : Calm (encodeTransition t) := by
  unfold encodeTransition
  split
  · rename_i h; exact calm_error (valueText_calm _) h
  · exact calm_ok _

theorem encodeTSet_calm (t : TSet) : Calm (encodeTSet t) := by
  unfold encodeTSet
  split
  · rename_i h; exact calm_error (encodeElems_calm encodeTransition_calm _) h
  · exact calm_ok _

theorem encodeType_calm (t : Option RsType) : Calm (encodeType t) := by
  cases t with
  | none => exact calm_ok _
  | some t =>
    rw [encodeType]
    unfold RsType.marshalText
    split
    · rename_i h
      split at h
      · cases h
      · cases h; exact calm_throw _
    · exact calm_ok _

theorem encodeState_calm (s : State) : Calm (encodeState s) := by
  unfold encodeState
  split
  · rename_i h; exact calm_error (encodeElems_calm encodeTSet_calm _) h
  · split
    · rename_i h; exact calm_error (encodeMap_calm (fun o => calm_ok _) _) h
    · exact calm_ok _

theorem encodeStm_calm (m : Stm) : Calm (encodeStm m) := by
  unfold encodeStm
  split
  · rename_i h; exact calm_error (encodeElems_calm encodeState_calm _) h
  · split
    · rename_i h; exact calm_error (encodeMap_calm encodeType_calm _) h
    · exact calm_ok _

theorem encodeStmSuite_calm (s : StmSuite) : Calm (encodeStmSuite s) := by
  unfold encodeStmSuite
  split
  · rename_i h; exact calm_error (encodeMap_calm encodeType_calm _) h
  · split
    · rename_i h; exact calm_error (encodeMap_calm encodeStm_calm _) h
    · exact calm_ok _

/-! ### files -/

theorem write_file_calm (fs : Fs) (l : Loc) (c : Rtcg.Content) : Calm (fs.write l c) := by
  unfold Fs.write Fs.create
  repeat' split
  all_goals first | exact calm_ok _ | exact calm_throw _ | (rename_i h; split at h <;> first | (cases h; done) | (cases h; exact calm_throw _))

theorem runOp_calm (cwd : Loc) (fs : Fs) (op : Op) : Calm (Gen.runOp cwd fs op) := by
  cases op with
  | mkdir p =>
    show Calm (fs.mkdirAll _)
    unfold Fs.mkdirAll
    split
    · exact calm_throw _
    · exact calm_ok _
  | write p c => exact write_file_calm _ _ _
  | copy s d =>
    show Calm (fs.copy _ _)
    unfold Fs.copy Fs.create
    repeat' split
    all_goals first | exact calm_ok _ | exact calm_throw _ | (rename_i h; split at h <;> first | (cases h; done) | (cases h; exact calm_throw _))

theorem execute_calm (c : Rtcg.Content) : Calm (Templates.execute c) := by
  cases c <;> first | exact calm_ok _ | skip
  · show Calm (Templates.convertH _)
    unfold Templates.convertH
    split
    · exact calm_ok _
    · exact calm_throw _
  · show Calm (Templates.mainCpp _ _ _ _)
    unfold Templates.mainCpp
    repeat' split
    all_goals first | exact calm_ok _ | exact calm_throw _

theorem templatesRunOp_calm (cwd : Loc) (fs : Fs) (op : Op) : Calm (Templates.runOp cwd fs op).2 := by
  unfold Templates.runOp
  split
  · rename_i h; exact calm_error (runOp_calm _ _ _) h
  · split
    · exact execute_calm _
    · exact calm_ok _

theorem maybeClean_calm (cwd : Loc) (fs : Fs) (clean : Bool) (out : Str) : Calm (Gen.maybeClean cwd fs clean out).2 := by
  unfold Gen.maybeClean Fs.removeAll
  repeat' split
  all_goals first | exact calm_ok _ | exact calm_throw _

end Rtcg.CalmProofs
