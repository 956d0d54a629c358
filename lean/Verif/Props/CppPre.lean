import Verif.Props.CppWhole
import Verif.Proofs.CppPreMain
import Verif.Proofs.CppPreH
import Verif.Proofs.CppLink

/-
The generated programs as a compiler sees them: with what they include, and with the words that convert.h defines replaced.
-/

namespace Rtcg

open Spec Spec.Cpp Program Programs Harness Tmpl

namespace Spec.Cpp.Pre

open Templates Rtcg.Cpp

variable {U : Unicode} {date : Str} {c : CppConfig.Config} {ts : GoMap Str Validate.Test} {r : StmSuite} {name : Str} {m : Stm}

theorem upper_head (hU : U.AsciiOK) {w : Str} (h : WordName w) :
    (Strmanip.upcaseFirst U w).head?.any (fun c => 97 ≤ c.toNat && c.toNat ≤ 122) = false := by
  obtain ⟨h1, h2⟩ := h
  cases w with
  | nil => rfl
  | cons x w =>
    rw [(C44_upcaseFirst U).2, List.head?_cons, Option.any_some]
    have hx : wordChar x = true := by simp only [List.all_cons, Bool.and_eq_true] at h2; exact h2.1
    have hc := Good.wordChar_lt hx
    rw [hU.toUpper x hc]
    exact Good.ascii_chars (p := fun c => (97 ≤ (if 97 ≤ c.toNat ∧ c.toNat ≤ 122 then Char.ofNat (c.toNat - 32) else c).toNat &&
      (if 97 ≤ c.toNat ∧ c.toNat ≤ 122 then Char.ofNat (c.toNat - 32) else c).toNat ≤ 122) = false) (by decide +kernel) hc

theorem chan_iff (h : MadeFrom ts r) (c : CppConfig.Config) (ch : Str) : ch ∈ chansOf (c.process r.types) ↔ ChannelOf r ch := by
  unfold chansOf
  rw [List.mem_map]
  constructor
  · rintro ⟨⟨ch, ct⟩, he, rfl⟩
    obtain ⟨t, h1, _⟩ := (entries h c ch ct).1 he
    exact ⟨_, h1⟩
  · rintro ⟨t, ht⟩
    obtain ⟨ty, rfl, _⟩ := (made_typesAre h ch).2 t ht
    exact ⟨_, (entries h c ch _).2 ⟨ty, ht, rfl⟩, rfl⟩

theorem goodChans (hU : U.AsciiOK) (h : MadeFrom ts r) (g : ConvertNames U c (ChannelOf r)) : GoodChans U (c.process r.types) := by
  refine ⟨(C48_process c r.types h.2.2.2.1).2.1, ?_, ?_, ?_⟩
  · intro a ha b hb
    exact g.distinct a b ((chan_iff h c a).1 ha) ((chan_iff h c b).1 hb)
  · intro a ha
    exact upper_head hU (g.words a ((chan_iff h c a).1 ha))
  · intro a ha
    exact Good.WordName.ne_nil (Good.upcase_word hU (g.words a ((chan_iff h c a).1 ha)))

theorem safe_id (hU : U.AsciiOK) {id : Str} (h : id = c!"initial" ∨ ∃ k, id = c!"step" ++ decNat k) : safe (enumField U id) = true := by
  rcases h with rfl | ⟨k, rfl⟩
  · have h1 : enumField U c!"initial" = c!"INITIAL" := by
      unfold enumField Unicode.strToUpper
      simp [hU.toUpper]
    rw [h1]
    decide
  · rw [Good.enumField_step hU]
    obtain ⟨w, d, hd⟩ : ∃ w d, decNat k = w ++ [d] := ⟨_, _, (List.dropLast_append_getLast (decNat_ne_nil k)).symm⟩
    have hc := decNat_digits k d (by rw [hd]; simp)
    rw [hd]
    refine safe_app w ⟨?_, ?_, ?_⟩ <;> (rintro rfl; exact absurd hc.2 (by decide))

theorem safe_outcome (hU : U.AsciiOK) (o : Outcome) (h : o.val.toNat < 4) : safe (enumField U o.string) = true := by
  rw [Good.outcomes hU o h]
  unfold outcomeWord
  split
  · decide
  · split
    · decide
    · split <;> decide

theorem words (hU : U.AsciiOK) (hv : c.variant = .animate ∨ c.variant = .ros) (h : MadeFrom ts r)
    (hno : ∀ nt ∈ ts, NoIds nt.2.root) (hm : (name, m) ∈ r.tests) (gc : ConvertNames U c (ChannelOf r))
    (ht : ∀ t ∈ GoSet.values m.tests, ¬ Defined U (· ∈ chansOf (c.process r.types)) t) (T : Str → CType) :
    Words U c.variant (wordType U c.variant T (chansOf (c.process r.types))) (fun w => ¬ Defined U (· ∈ chansOf (c.process r.types)) w) m
      (TransitionContext.make m) (Harness.initial m) := by
  have hc := goodChans hU h gc
  have hs := Good.made_sound hU h hno hm
  obtain ⟨t, ht', ok⟩ := madeFrom_machine h hm
  obtain ⟨_, hform⟩ := ok.ids (hno _ ht')
  have hid : ∀ s ∈ m.states, ¬ Defined U (· ∈ chansOf (c.process r.types)) (enumField U s.id) :=
    fun s hs => safe_undefined hc (safe_id hU (hform s hs))
  have hagg : ∀ a ∈ m.aggregates, a.channel.name ∈ chansOf (c.process r.types) := by
    intro a ha
    obtain ⟨s, h1, x, h2, h3⟩ := Good.agg_channel ha
    obtain ⟨ty, h4, _⟩ := Good.made_types h hm c s h1 x h2
    rw [h3] at h4
    exact (chan_iff h c _).2 ⟨_, h4⟩
  refine ⟨Good.env hU hv, fun w hw => safe_undefined hc hw, ht, hid, ?_, ?_, ?_, ?_, ?_, ?_⟩
  · intro s h1 e he
    obtain ⟨h2, h3⟩ := (hs.verdicts s h1).2 e he
    exact ⟨ht _ h2, safe_undefined hc (safe_outcome hU _ h3)⟩
  · obtain ⟨s, h1⟩ := hs.head
    cases hst : m.states with
    | nil => rw [hst] at h1; cases h1
    | cons s' l =>
      have : Harness.initial m = s'.id := by
        unfold Harness.initial Stm.initialState
        rw [hst]
      rw [this]
      exact hid s' (by rw [hst]; simp)
  · intro e he
    obtain ⟨⟨s', h4, h5⟩, _⟩ := merged_entry (show (e.1, e.2) ∈ _ from he)
    rw [← h5]
    exact hid s' h4
  · intro a ha e he
    rw [make_eq] at ha
    obtain ⟨⟨s', h4, h5⟩, _⟩ := agg_entry (List.mem_filter.1 ha).1 (show (e.1, e.2) ∈ a.states from he)
    rw [← h5]
    exact hid s' h4
  · intro a ha
    rw [make_eq] at ha
    exact ⟨_, wordType_msg hc (hagg a (List.mem_filter.1 ha).1)⟩
  · intro a ha
    rw [make_eq] at ha
    exact ⟨_, wordType_value hc (hagg a (List.mem_filter.1 ha).1)⟩

theorem unit_of {files : Str → Option Str} {text : Str} {M : Macros} {toks : List Tok}
    (h : preFile files includeLimit ⟨[], []⟩ text = some (⟨M, []⟩, toks)) : unit files text = parse toks := by
  unfold unit preprocess
  rw [h]
  rfl

theorem unit_pre {files : Str → Option Str} {text : Str} {M : Macros} {toks : List Tok}
    (h : preprocess files text = some (M, toks)) : unit files text = parse toks := by
  unfold unit
  rw [h]
  rfl

theorem unit_main (hU : U.AsciiOK) (hv : c.variant = .animate ∨ c.variant = .ros) (h : MadeFrom ts r)
    (hno : ∀ nt ∈ ts, NoIds nt.2.root) (hm : (name, m) ∈ r.tests) (g : GoodTest U date c name m) (gc : ConvertNames U c (ChannelOf r))
    (ht : ∀ t ∈ GoSet.values m.tests, ¬ Defined U (· ∈ chansOf (c.process r.types)) t) {T : Str → CType}
    (hT : ValueTypes U c.variant (c.process r.types) T) {files : Str → Option Str}
    (hf : FilesFor files (CppText.convertText U c.variant (c.process r.types)) (c.process r.types)) :
    unit files (CppText.mainText U c.variant date name m (TransitionContext.make m) (c.process r.types) (Harness.initial m)) =
      some (Tree.rtcgHItems ++ (Tree.convertItems U c.variant (c.process r.types) ++
        Tree.mainItems U c.variant name m (TransitionContext.make m) (c.process r.types) (Harness.initial m)).map
          (substItem (wordType U c.variant T (chansOf (c.process r.types))))) := by
  have hg := (generated hU hv h hno hm g).1
  have gcv := goodConvert hU h gc
  have hc := goodChans hU h gc
  have w := words hU hv h hno hm gc ht T
  have he := Good.ok_env hU hv
  rw [unit_pre (preprocess_main he.toEnv he.outcomes hg gcv hf)]
  have hr := replaces hv hc gcv hT
  have k1 := convertItems_k w (fun e he => (gcv.channels e he).2.2.2.2.2)
    (fun e he => ⟨⟨_, wordType_msg hc (List.mem_map_of_mem he)⟩, _, wordType_value hc (List.mem_map_of_mem he)⟩)
  have k2 := mainItems_k w name (c.process r.types)
  rw [Subst.flatItems hr _ k1, Subst.flatItems hr _ k2, List.map_append]
  have ha : ∀ a b : List Item, Parse.pItems a ++ Parse.pItems b = Parse.pItems (a ++ b) := fun a b => (List.flatMap_append ..).symm
  rw [ha]
  refine parse_after _ ?_
  intro i hi
  rw [← List.map_append] at hi
  obtain ⟨j, hj, rfl⟩ := List.mem_map.1 hi
  refine Subst.okItem (wordType_ok hv hT) j ?_
  rcases List.mem_append.1 hj with hj | hj
  · exact Ok.convertItems_ok gcv j hj
  · exact Ok.mainItems_ok he hg j hj

theorem scan_rtcgCpp : scan TemplateFiles.rtcgCpp = [.dir c!"include <ostream>"] ++ ([.dir c!"include \"rtcg.h\""] ++ lex TemplateFiles.rtcgCpp) := by
  decide +kernel

theorem rtcgCpp_words : ∀ t ∈ lex TemplateFiles.rtcgCpp, isDir t = false ∧ t ≠ .word c!"RTCG_H_DEFINED" := by decide +kernel

/-- rtcg.cpp with rtcg.h -/
theorem unit_rtcgCpp {files : Str → Option Str} (hf : files c!"rtcg.h" = some TemplateFiles.rtcgH) :
    unit files TemplateFiles.rtcgCpp = some (Tree.rtcgHItems ++ Tree.rtcgCppItems) := by
  have hp : (⟨[], []⟩ : Spec.Cpp.Pre).keeps = true := rfl
  have e1 : preAll (incl files 199) ⟨[], []⟩ [.dir c!"include <ostream>"] = some (⟨[], []⟩, []) := preAll_dir (system_dir hp c!"ostream>")
  have e4 : preAll (incl files 199) ⟨[], []⟩ [.dir c!"include \"rtcg.h\""] =
      some (⟨[(c!"RTCG_H_DEFINED", [])], []⟩, lex TemplateFiles.rtcgH) := by
    refine preAll_dir ?_
    refine (local_dir hp (src := c!"rtcg.h") (by unfold Plain; decide) []).trans ?_
    rw [incl_some hf, preFile_succ, pre_rtcgH]
  have e6 := preAll_keep (inc := incl files 199) (p := ⟨[(c!"RTCG_H_DEFINED", [])], []⟩) rfl (ts := lex TemplateFiles.rtcgCpp)
    (fun t ht => (rtcgCpp_words t ht).1)
  have e7 : (lex TemplateFiles.rtcgCpp).flatMap (expand [(c!"RTCG_H_DEFINED", [])]) = lex TemplateFiles.rtcgCpp := by
    refine expandAll_self _ _ ?_
    intro w hw
    have : ∀ m ∈ [(c!"RTCG_H_DEFINED", ([] : List Tok))], m.1 ≠ w := by
      intro m hm
      rw [List.mem_singleton] at hm
      subst hm
      intro he
      exact (rtcgCpp_words _ hw).2 (by rw [← he])
    exact find_none.2 this
  have key : preFile files includeLimit ⟨[], []⟩ TemplateFiles.rtcgCpp = some (⟨[(c!"RTCG_H_DEFINED", [])], []⟩,
      lex TemplateFiles.rtcgH ++ lex TemplateFiles.rtcgCpp) := by
    rw [show includeLimit = 199 + 1 from rfl, preFile_succ, scan_rtcgCpp]
    rw [e7] at e6
    have := preAll_trans e1 (preAll_trans e4 e6)
    rw [List.nil_append] at this
    exact this
  rw [unit_of key, parse_rtcgBoth]

/-! ### types -/

theorem wordTypes {v : Variant} {ctx : CppConfig.Context} (hc : GoodChans U ctx) {chans : Str → Prop} (hch : ∀ ch, ch ∈ chansOf ctx ↔ chans ch)
    (T : Str → CType) : WordTypes U v chans T (wordType U v T (chansOf ctx)) := by
  refine ⟨fun ch h => wordType_value hc ((hch ch).2 h), fun ch h => wordType_msg hc ((hch ch).2 h), fun w s h => ?_⟩
  obtain ⟨ch, h1, h2⟩ := wordType_inv h
  refine ⟨ch, (hch ch).1 h1, ?_⟩
  rcases h2 with h2 | h2
  · exact .inl h2.1
  · exact .inr h2.1

/-- The words of default types -/
theorem default_type (v : Variant) (t : RsType) :
    Spells (if v = Variant.ros then c!"std_msgs::String" else Rtcg.Cpp.stdType t) (defaultType v t) ∧
    (∀ w, .word w ∈ lex (if v = Variant.ros then c!"std_msgs::String" else Rtcg.Cpp.stdType t) → safe w = true) ∧
    (v = Variant.ros → (defaultType v t).ptr = [] ∧ ∀ w ∈ (defaultType v t).name, isIdent w = true) := by
  unfold defaultType
  by_cases hv : v = Variant.ros
  · simp only [if_pos hv]
    refine ⟨⟨by decide +kernel, rfl⟩, ?_, fun _ => ⟨trivial, by decide⟩⟩
    have h : ∀ x ∈ lex c!"std_msgs::String", ∀ w, x = .word w → safe w = true := by
      have : lex c!"std_msgs::String" = [.word c!"std_msgs", .op c!"::", .word c!"String"] := by decide +kernel
      rw [this]
      simp (config := { decide := true })
    exact fun w hw => h _ hw w rfl
  · simp only [if_neg hv]
    refine ⟨?_, ?_, fun h => absurd h hv⟩
    · unfold Rtcg.Cpp.stdType cppType
      split
      · exact ⟨by decide +kernel, rfl⟩
      · split
        · exact ⟨by decide +kernel, rfl⟩
        · split
          · exact ⟨by decide +kernel, rfl⟩
          · split
            · exact ⟨by decide +kernel, rfl⟩
            · exact ⟨by decide +kernel, rfl⟩
    · have h : ∀ text ∈ [c!"std::string", c!"unsigned int", c!"int", c!"double", c!"void *"], ∀ x ∈ lex text,
          (match x with | .word w => safe w | _ => true) = true := by decide +kernel
      have hm : Rtcg.Cpp.stdType t ∈ [c!"std::string", c!"unsigned int", c!"int", c!"double", c!"void *"] := by
        unfold Rtcg.Cpp.stdType
        split <;> [skip; split <;> [skip; split <;> [skip; split]]] <;> simp
      exact fun w hw => h _ hm _ hw

theorem valueTypes (hU : U.AsciiOK) (h : MadeFrom ts r) (gc : ConvertNames U c (ChannelOf r)) {T : Str → CType}
    (hT : ChannelTypes U c (ChannelOf r) (fun ch t => GoMap.get? r.types ch = some (some t)) T) :
    ValueTypes U c.variant (c.process r.types) T := by
  have hc := goodChans hU h gc
  have hch : (fun ch => ch ∈ chansOf (c.process r.types)) = ChannelOf r := funext fun ch => propext (chan_iff h c ch)
  have key : ∀ e ∈ (c.process r.types).channelTypes, Spells (CppText.valueType c.variant e.2) (T e.1) ∧
      (∀ w, .word w ∈ lex (CppText.valueType c.variant e.2) → ¬ Defined U (ChannelOf r) w) ∧
      (c.variant = Variant.ros → (T e.1).ptr = [] ∧ ∀ w ∈ (T e.1).name, isIdent w = true) := by
    rintro ⟨ch, ct⟩ he
    obtain ⟨t, h1, rfl⟩ := (entries h c ch ct).1 he
    unfold CppText.valueType
    by_cases ho : Overridden c ch
    · rw [if_pos ((overridden_iff c ch (some t)).2 ho)]
      obtain ⟨ty, h2, h3⟩ := id ho
      show Spells ((configuredType c ch).getD []) _ ∧ (∀ w, .word w ∈ lex ((configuredType c ch).getD []) → _) ∧ _
      rw [h2]
      exact ⟨hT.spells ch ty ⟨_, h1⟩ h2 h3, hT.undefined ch ty ⟨_, h1⟩ h2 h3, fun hv => hT.classes hv ch ⟨_, h1⟩ ho⟩
    · rw [if_neg (fun hh => ho ((overridden_iff c ch (some t)).1 hh))]
      show Spells (if c.variant = Variant.ros then _ else Rtcg.Cpp.stdType t) (T ch) ∧
        (∀ w, .word w ∈ lex (if c.variant = Variant.ros then _ else Rtcg.Cpp.stdType t) → _) ∧ (c.variant = Variant.ros → (T ch).ptr = [] ∧ _)
      rw [hT.default ch t ⟨_, h1⟩ h1 ho]
      obtain ⟨d1, d2, d3⟩ := default_type c.variant t
      refine ⟨d1, fun w hw => ?_, d3⟩
      rw [← hch]
      exact safe_undefined hc (d2 w hw)
  refine ⟨fun e he => (key e he).1, fun e he w hw => ?_, fun hv e he => (key e he).2.2 hv⟩
  rw [hch]
  exact (key e he).2.1 w hw

theorem filesFor (h : MadeFrom ts r) (hi : GoodIncludes c) (conv : Str) :
    FilesFor (found conv TemplateFiles.rtcgH) conv (c.process r.types) := by
  refine ⟨rfl, rfl, ?_, ?_⟩
  · intro f hf
    simp only [List.mem_cons, List.not_mem_nil, or_false] at hf
    rcases hf with rfl | rfl | rfl <;> rfl
  · rw [(C48_process c r.types h.2.2.2.1).1]
    intro i h1 h2
    obtain ⟨h3, h4, h5⟩ := hi i h1 h2
    exact ⟨h3, by unfold found; rw [if_neg h4, if_neg h5]⟩

theorem linked_of {files : Str → Option Str} {a b : Str} {x y : List Item} (h1 : unit files a = some x) (h2 : unit files b = some y) :
    linked files a b = some (link (facts [] x) (facts [] y)) := by
  unfold linked
  rw [h1, h2]
  rfl

theorem type_named {t : CType} (h : Parse.OkType t) : t.name ≠ [] := by
  intro e
  rcases h.1 with h | ⟨w, _, h⟩ | h
  · rw [e] at h; cases h
  · rw [e] at h; cases h
  · rw [e] at h; exact absurd h (by unfold Parse.OkQ; simp)

theorem renamed (hU : U.AsciiOK) (hv : c.variant = .animate ∨ c.variant = .ros) (h : MadeFrom ts r)
    (hno : ∀ nt ∈ ts, NoIds nt.2.root) (hm : (name, m) ∈ r.tests) (g : GoodTest U date c name m) (gc : ConvertNames U c (ChannelOf r))
    (hi : GoodIncludes c) (ht : ∀ t ∈ GoSet.values m.tests, ¬ Defined U (ChannelOf r) t) {T : Str → CType}
    (hT : ChannelTypes U c (ChannelOf r) (fun ch t => GoMap.get? r.types ch = some (some t)) T) :
    ∃ τ P', WordTypes U c.variant (ChannelOf r) T τ ∧
      linked (found (CppText.convertText U c.variant (c.process r.types)) TemplateFiles.rtcgH)
        (CppText.mainText U c.variant date name m (TransitionContext.make m) (c.process r.types) (Harness.initial m)) TemplateFiles.rtcgCpp = some P' ∧
      Renamed τ (facts [] (Tree.convertItems U c.variant (c.process r.types)) ++ Sem.Src.prog ⟨U, c.variant, name, m, c.process r.types⟩) P' := by
  have hc := goodChans hU h gc
  have gcv := goodConvert hU h gc
  have hch : (fun ch => ch ∈ chansOf (c.process r.types)) = ChannelOf r := funext fun ch => propext (chan_iff h c ch)
  have hV := valueTypes hU h gc hT
  have hf := filesFor (c := c) h hi (CppText.convertText U c.variant (c.process r.types))
  have ht' : ∀ t ∈ GoSet.values m.tests, ¬ Defined U (· ∈ chansOf (c.process r.types)) t := by rw [hch]; exact ht
  have w := words hU hv h hno hm gc ht' T
  have R := Sub.renames ⟨U, c.variant, name, m, c.process r.types⟩ (ctx := c.process r.types) w
    (fun w hw => wordType_none hw) (fun w s hs => type_named (wordType_ok hv hV w s hs)) (fun e he => (gcv.channels e he).2.2.2.2.2)
    (fun e he => ⟨⟨_, wordType_msg hc (List.mem_map_of_mem he)⟩, _, wordType_value hc (List.mem_map_of_mem he)⟩)
  have hl := linked_of (unit_main hU hv h hno hm g gc ht' hV hf) (unit_rtcgCpp (files := found (CppText.convertText U c.variant (c.process r.types))
    TemplateFiles.rtcgH) rfl)
  exact ⟨_, _, wordTypes hc (chan_iff h c) T, hl, fun L fuel depth args input events =>
    ⟨fun x st hr => Sub.runMain_ok R hr, fun st hr => Sub.runMain_wait R hr⟩⟩

theorem defined_iff {M : Macros} {w : Str} : M.find w ≠ none ↔ ∃ m ∈ M, m.1 = w := by
  unfold Macros.find
  rw [Ne, Option.map_eq_none_iff, List.find?_eq_none]
  simp

theorem convertMacros_keeps {U : Unicode} {v : Variant} {ctx : CppConfig.Context} {M : Macros} {w : Str} (h : M.find w ≠ none) :
    (convertMacros U v ctx M).find w ≠ none := by
  rw [defined_iff] at h ⊢
  obtain ⟨m, hm, e⟩ := h
  exact ⟨m, by unfold convertMacros; simp [hm], e⟩

theorem convertMacros_guard {U : Unicode} {v : Variant} {ctx : CppConfig.Context} {M : Macros} :
    (convertMacros U v ctx M).find c!"CONVERT_H_DEFINED" ≠ none :=
  defined_iff.2 ⟨(c!"CONVERT_H_DEFINED", []), by unfold convertMacros; simp, rfl⟩

section

variable {inc : Pre → Str → Option (Pre × List Tok)} {M : Macros} {k : List Bool}

theorem rtcg_ifndef : directive inc ⟨M, k⟩ c!"ifndef RTCG_H_DEFINED" = some (⟨M, (M.find c!"RTCG_H_DEFINED").isNone :: k⟩, []) := by
  unfold directive
  rw [show lex c!"ifndef RTCG_H_DEFINED" = [.word c!"ifndef", .word c!"RTCG_H_DEFINED"] by decide +kernel]
  rfl

theorem rtcg_endif {b : Bool} : directive inc ⟨M, b :: k⟩ c!"endif // RTCG_H_DEFINED" = some (⟨M, k⟩, []) := by
  unfold directive
  rw [show lex c!"endif // RTCG_H_DEFINED" = [.word c!"endif"] by decide +kernel]
  rfl

theorem rtcg_lex : lex c!"define RTCG_H_DEFINED" = [.word c!"define", .word c!"RTCG_H_DEFINED"] := by decide +kernel

theorem rtcg_first (hM : M.find c!"RTCG_H_DEFINED" = none) (hk : k.all id = true) :
    ∃ given, preAll inc ⟨M, k⟩ (scan TemplateFiles.rtcgH) = some (⟨(c!"RTCG_H_DEFINED", []) :: M, k⟩, given) := by
  have hk' : ∀ M, (⟨M, true :: k⟩ : Pre).keeps = true := fun M => by unfold Pre.keeps; simpa using hk
  rw [scan_rtcgH]
  have e1 : preAll inc ⟨M, k⟩ [.dir c!"ifndef RTCG_H_DEFINED", .dir c!"define RTCG_H_DEFINED"] =
      some (⟨(c!"RTCG_H_DEFINED", []) :: M, true :: k⟩, []) := by
    have e0 : directive inc ⟨M, true :: k⟩ c!"define RTCG_H_DEFINED" = some (⟨(c!"RTCG_H_DEFINED", []) :: M, true :: k⟩, []) := by
      unfold directive
      rw [rtcg_lex]
      simp only [hk']
      rfl
    simp only [preAll, preOne, rtcg_ifndef, hM, Option.isNone_none, Option.bind_some, e0, Option.map_some, List.append_nil]
  have e2 := preAll_keep (inc := inc) (p := ⟨(c!"RTCG_H_DEFINED", []) :: M, true :: k⟩) (hk' _) (ts := lex TemplateFiles.rtcgH)
    (fun t ht => (rtcgH_words t ht).1)
  exact ⟨_, preAll_trans e1 (preAll_trans e2 (preAll_dir rtcg_endif))⟩

theorem rtcg_again (hM : M.find c!"RTCG_H_DEFINED" ≠ none) : preAll inc ⟨M, k⟩ (scan TemplateFiles.rtcgH) = some (⟨M, k⟩, []) := by
  rw [scan_rtcgH]
  have hn : (M.find c!"RTCG_H_DEFINED").isNone = false := by
    cases hf : M.find c!"RTCG_H_DEFINED" with
    | none => exact absurd hf hM
    | some _ => rfl
  have hk : (⟨M, false :: k⟩ : Pre).keeps = false := rfl
  have e1 : preAll inc ⟨M, k⟩ [.dir c!"ifndef RTCG_H_DEFINED", .dir c!"define RTCG_H_DEFINED"] = some (⟨M, false :: k⟩, []) := by
    simp only [preAll, preOne, rtcg_ifndef, hn, Option.bind_some, skip_dir hk rtcg_lex (by decide) (by decide), Option.map_some, List.append_nil]
  have e2 := preAll_skip (inc := inc) hk (ts := lex TemplateFiles.rtcgH) (fun t ht => (rtcgH_words t ht).1)
  exact preAll_trans e1 (preAll_trans e2 (preAll_dir rtcg_endif))

end

end Spec.Cpp.Pre

open Spec.Cpp.Pre Spec.Cpp.Whole

section suites

variable {U : Unicode} {date : Str} {c : CppConfig.Config} {ts : GoMap Str Validate.Test} {r : StmSuite} {name : Str} {m : Stm}

/-- C117: main.cpp and rtcg.cpp as a compiler sees them, with what they include.  For every suite that rtcg-make-stms gives and every test of
it, if the channels are called by words that differ in more than the case of their first letter, the configured types are types, and no test is
called like a word that convert.h defines: main.cpp is what rtcg.h, convert.h and main.cpp say, one after the other, where the words that
convert.h defines for the types of values and messages of each channel are replaced by these types; and rtcg.cpp is what rtcg.h and rtcg.cpp
say. -/
theorem C117_units (hU : U.AsciiOK) (hv : c.variant = .animate ∨ c.variant = .ros) (h : MadeFrom ts r)
    (hno : ∀ nt ∈ ts, NoIds nt.2.root) (hm : (name, m) ∈ r.tests) (g : GoodTest U date c name m) (gc : ConvertNames U c (ChannelOf r))
    (hi : GoodIncludes c) (ht : ∀ t ∈ GoSet.values m.tests, ¬ Defined U (ChannelOf r) t) {T : Str → CType}
    (hT : ChannelTypes U c (ChannelOf r) (fun ch t => GoMap.get? r.types ch = some (some t)) T) :
    ∃ conv main a b k i τ, render U date (.convertH c.variant (c.process r.types)) = (conv, .ok ()) ∧
      render U date (.mainCpp c.variant name m (TransitionContext.make m) (c.process r.types)) = (main, .ok ()) ∧
      parse (lex TemplateFiles.rtcgH) = some a ∧ parse (lex TemplateFiles.rtcgCpp) = some b ∧
      parse (lex conv) = some k ∧ parse (lex main) = some i ∧ WordTypes U c.variant (ChannelOf r) T τ ∧
      unit (found conv TemplateFiles.rtcgH) main = some (a ++ (k ++ i).map (substItem τ)) ∧
      unit (found conv TemplateFiles.rtcgH) TemplateFiles.rtcgCpp = some (a ++ b) := by
  have hch : (fun ch => ch ∈ chansOf (c.process r.types)) = ChannelOf r := funext fun ch => propext (chan_iff h c ch)
  have hg := generated hU hv h hno hm g
  exact ⟨_, _, _, _, _, _, _, convert_renders hv h, hg.2.1, Tree.parse_rtcgH, Tree.parse_rtcgCpp,
    Ok.parse_convert (Good.ok_env hU hv).toEnv (goodConvert hU h gc), Ok.parse_main (Good.ok_env hU hv) hg.1,
    wordTypes (goodChans hU h gc) (chan_iff h c) T,
    unit_main hU hv h hno hm g gc (by rw [hch]; exact ht) (valueTypes hU h gc hT) (filesFor h hi _), unit_rtcgCpp rfl⟩

/-- C117: convert.h may be included more than once.  Wherever it is included — text kept, whatever words are defined already — it can be preprocessed,
and if it is included again later, whatever has been defined since, it gives nothing and changes nothing. -/
theorem C117_again (hU : U.AsciiOK) (hv : c.variant = .animate ∨ c.variant = .ros) (h : MadeFrom ts r) (gc : ConvertNames U c (ChannelOf r))
    (hi : GoodIncludes c) :
    ∃ conv, render U date (.convertH c.variant (c.process r.types)) = (conv, .ok ()) ∧
      ∀ n p, p.keeps = true → ∃ p' given, preFile (found conv TemplateFiles.rtcgH) (n + 1) p conv = some (p', given) ∧ p'.kept = p.kept ∧
        (∀ w, p.macros.find w ≠ none → p'.macros.find w ≠ none) ∧
        ∀ q : Pre, (∀ w, p'.macros.find w ≠ none → q.macros.find w ≠ none) →
          preFile (found conv TemplateFiles.rtcgH) (n + 1) q conv = some (q, []) := by
  have gcv := goodConvert hU h gc
  have hf := filesFor (c := c) h hi (CppText.convertText U c.variant (c.process r.types))
  have hE := (Good.ok_env hU hv).toEnv
  have hinc : ∀ k, ∀ i ∈ (c.process r.types).includes, i.isSystem = false → Cpp.Plain i.src ∧
      ∀ p, incl (found (CppText.convertText U c.variant (c.process r.types)) TemplateFiles.rtcgH) k p i.src = some (p, []) := by
    intro k i him hs
    obtain ⟨h1, h2⟩ := hf.includes i him hs
    exact ⟨h1, fun p => incl_none h2⟩
  refine ⟨_, convert_renders hv h, fun n p hk => ?_⟩
  obtain ⟨M, k⟩ := p
  have again : ∀ q : Pre, q.macros.find c!"CONVERT_H_DEFINED" ≠ none →
      preFile (found (CppText.convertText U c.variant (c.process r.types)) TemplateFiles.rtcgH) (n + 1) q
        (CppText.convertText U c.variant (c.process r.types)) = some (q, []) := by
    rintro ⟨M', k'⟩ hM'
    rw [preFile_succ]
    exact pre_convert_again hE gcv hM' (fun i him hs => (hinc 0 i him hs).1)
  by_cases hM : M.find c!"CONVERT_H_DEFINED" = none
  · exact ⟨_, _, (preFile_succ _ _ _ _).trans (pre_convert hE gcv hM hk (hinc n)), rfl, fun w hw => convertMacros_keeps hw,
      fun q hq => again q (hq _ convertMacros_guard)⟩
  · exact ⟨_, _, again ⟨M, k⟩ hM, rfl, fun _ hw => hw, fun q hq => again q (hq _ hM)⟩

/-- C117: and so may rtcg.h, whatever other files there are. -/
theorem C117_again_rtcg (files : Str → Option Str) (n : Nat) (p : Pre) (hk : p.keeps = true) :
    ∃ p' given, preFile files (n + 1) p TemplateFiles.rtcgH = some (p', given) ∧ p'.kept = p.kept ∧
      (∀ w, p.macros.find w ≠ none → p'.macros.find w ≠ none) ∧
      ∀ q : Pre, (∀ w, p'.macros.find w ≠ none → q.macros.find w ≠ none) → preFile files (n + 1) q TemplateFiles.rtcgH = some (q, []) := by
  obtain ⟨M, k⟩ := p
  by_cases hM : M.find c!"RTCG_H_DEFINED" = none
  · obtain ⟨given, hg⟩ := rtcg_first (inc := incl files n) hM hk
    refine ⟨_, given, (preFile_succ _ _ _ _).trans hg, rfl, fun w hw => ?_, fun q hq => ?_⟩
    · rw [defined_iff] at hw ⊢
      obtain ⟨m, hm, e⟩ := hw
      exact ⟨m, List.mem_cons_of_mem _ hm, e⟩
    · exact (preFile_succ _ _ _ _).trans (rtcg_again (hq _ (defined_iff.2 ⟨_, List.mem_cons_self .., rfl⟩)))
  · exact ⟨_, _, (preFile_succ _ _ _ _).trans (rtcg_again hM), rfl, fun _ hw => hw,
      fun q hq => (preFile_succ _ _ _ _).trans (rtcg_again (hq _ hM))⟩

/-- C117: the program that main.cpp and rtcg.cpp make with what they include does what the four files do of which C115 reads each on its own:
whatever these do when the words of convert.h can be used for types, it does with the types themselves. -/
theorem C117_program (hU : U.AsciiOK) (hv : c.variant = .animate ∨ c.variant = .ros) (h : MadeFrom ts r)
    (hno : ∀ nt ∈ ts, NoIds nt.2.root) (hm : (name, m) ∈ r.tests) (g : GoodTest U date c name m) (gc : ConvertNames U c (ChannelOf r))
    (hi : GoodIncludes c) (ht : ∀ t ∈ GoSet.values m.tests, ¬ Defined U (ChannelOf r) t) {T : Str → CType}
    (hT : ChannelTypes U c (ChannelOf r) (fun ch t => GoMap.get? r.types ch = some (some t)) T) :
    ∃ conv main P P' τ, render U date (.convertH c.variant (c.process r.types)) = (conv, .ok ()) ∧
      render U date (.mainCpp c.variant name m (TransitionContext.make m) (c.process r.types)) = (main, .ok ()) ∧
      program [conv, TemplateFiles.rtcgH, TemplateFiles.rtcgCpp, main] = some P ∧
      linked (found conv TemplateFiles.rtcgH) main TemplateFiles.rtcgCpp = some P' ∧
      WordTypes U c.variant (ChannelOf r) T τ ∧ Renamed τ P P' := by
  obtain ⟨τ, P', k1, k2, k3⟩ := renamed hU hv h hno hm g gc hi ht hT
  exact ⟨_, _, _, P', τ, convert_renders hv h, (generated hU hv h hno hm g).2.1, program_whole hU hv h hno hm g gc, k2, k1, k3⟩

end suites

/-- The program that main.cpp and rtcg.cpp, as they are below a directory, make with what they include: convert.h and rtcg.h as they are
there, and files of libraries. -/
def Spec.Cpp.OnDiskLinked (T : TextLayer) (fs : Fs) (dir : Loc) (name : Str) (P : Prog) : Prop :=
  ∃ conv h cpp main, HasText T fs (dir ++ [c!"src", c!"convert", c!"convert.h"]) conv ∧
    HasText T fs (dir ++ [c!"src", c!"rtcg", c!"rtcg.h"]) h ∧ HasText T fs (dir ++ [c!"src", c!"rtcg", c!"rtcg.cpp"]) cpp ∧
    HasText T fs (dir ++ [c!"src", name, c!"src", c!"main.cpp"]) main ∧ linked (found conv h) main cpp = some P

namespace Spec.Cpp.Pre

theorem onDiskWhole_fun {T : TextLayer} {fs : Fs} {dir : Loc} {name : Str} {P Q : Prog} (h : OnDiskWhole T fs dir name P)
    (h' : OnDiskWhole T fs dir name Q) : P = Q := by
  obtain ⟨_, _, _, _, a0, a1, a2, a3, a4⟩ := h
  obtain ⟨_, _, _, _, b0, b1, b2, b3, b4⟩ := h'
  rw [hasText_fun a0 b0, hasText_fun a1 b1, hasText_fun a2 b2, hasText_fun a3 b3, b4] at a4
  exact (Option.some.inj a4).symm

theorem onDisk {T : TextLayer} {fs : Fs} {dir : Loc} {c : CppConfig.Config} {ts : GoMap Str Validate.Test} {r : StmSuite} {name : Str}
    {m : Stm} (hU : T.unicode.AsciiOK) (hv : c.variant = .animate ∨ c.variant = .ros) (h : MadeFrom ts r)
    (hno : ∀ nt ∈ ts, NoIds nt.2.root) (hm : (name, m) ∈ r.tests) (g : GoodTest T.unicode T.date c name m)
    (gc : ConvertNames T.unicode c (ChannelOf r))
    (hi : GoodIncludes c) (ht : ∀ t ∈ GoSet.values m.tests, ¬ Defined T.unicode (ChannelOf r) t) {V : Str → CType}
    (hT : ChannelTypes T.unicode c (ChannelOf r) (fun ch t => GoMap.get? r.types ch = some (some t)) V)
    (hd : HasText T fs (dir ++ [c!"src", c!"convert", c!"convert.h"]) (CppText.convertText T.unicode c.variant (c.process r.types)))
    (htx : HasTexts T fs dir c r.types name m) :
    ∃ τ P P', WordTypes T.unicode c.variant (ChannelOf r) V τ ∧ OnDiskWhole T fs dir name P ∧ OnDiskLinked T fs dir name P' ∧ Renamed τ P P' := by
  obtain ⟨τ, P', k1, k2, k3⟩ := renamed hU hv h hno hm g gc hi ht hT
  obtain ⟨x1, x2, x3⟩ := htx
  exact ⟨τ, _, P', k1, ⟨_, _, _, _, hd, x1, x2, x3, program_whole hU hv h hno hm g gc⟩, ⟨_, _, _, _, hd, x1, x2, x3, k2⟩, k3⟩

theorem channelTypes_congr {U : Unicode} {c : CppConfig.Config} {chans chans' : Str → Prop} {base base' : Str → RsType → Prop} {T : Str → CType}
    (h : ChannelTypes U c chans base T) (hc : ∀ ch, chans' ch ↔ chans ch) (hb : ∀ ch t, base' ch t → base ch t) :
    ChannelTypes U c chans' base' T := by
  have : chans' = chans := funext fun ch => propext (hc ch)
  subst this
  exact ⟨fun ch t h0 h1 => h.default ch t h0 (hb ch t h1), h.spells, h.undefined, h.classes⟩

theorem sends_subst (τ : Str → Option CType) (st : St) :
    (st.subst τ).eff.filter (isSend .animate) = (st.eff.filter (isSend .animate)).map (Effect.subst τ) := by
  show (st.eff.map (Effect.subst τ)).filter _ = _
  rw [List.filter_map]
  congr 1
  refine List.filter_congr fun e _ => ?_
  cases e <;> rfl

theorem said_subst (τ : Str → Option CType) (st : St) {U : Unicode} {before : List Effect} {name : Str} {s : Status} {os : List (Str × Outcome)}
    (h : st.eff = before ++ outcomesSaid U .animate name s os) :
    (st.subst τ).eff = before.map (Effect.subst τ) ++ outcomesSaid U .animate name s os := by
  show st.eff.map (Effect.subst τ) = _
  rw [h, List.map_append]
  congr 1
  have : ∀ e ∈ outcomesSaid U .animate name s os, Effect.subst τ e = e := by
    intro e he
    unfold outcomesSaid logEff at he
    simp only [List.mem_append, List.mem_cons, List.not_mem_nil, or_false, List.mem_map] at he
    rcases he with (rfl | rfl) | ⟨_, _, rfl⟩ <;> rfl
  exact (List.map_congr_left this).trans (List.map_id _)

theorem wholeLib_named {L : Lib} {U : Unicode} {c : CppConfig.Config} {chans : Str → Prop} {τ : Str → Option CType} (h : WholeLib L U c chans) :
    WholeLib (L.named τ) U c chans := ⟨h.std, h.convert⟩

/-! ROS -/

theorem advertise_type {v : Variant} {chans : Str → Prop} {V : Str → CType} {τ : Str → Option CType} {U : Unicode}
    (hw : WordTypes U v chans V τ) {ch : Str} (h : chans ch) :
    substQ τ [c!".advertise", Rtcg.Cpp.channelValueType U ch] = c!".advertise" :: (V ch).name := by
  have := hw.value ch h
  simp only [substQ, this]
  exact if_pos (by decide)

theorem substQ_ros {τ : Str → Option CType} (f : List Str × Nat) (h : f ∈ rosFunctions) : substQ τ f.1 = f.1 := by
  unfold rosFunctions at h
  simp only [List.mem_cons, List.not_mem_nil, or_false] at h
  have h2 : ∀ w : Str, substQ τ [c!"ros", w] = [c!"ros", w] := by
    intro w
    cases hw : τ w with
    | none => simp only [substQ, hw]
    | some s => simp only [substQ, hw]; exact if_neg (by decide)
  rcases h with rfl | rfl | rfl | rfl | rfl | rfl
  · exact h2 _
  · exact h2 _
  · exact h2 _
  · rfl
  · rfl
  · rfl

theorem traceLib_named {L : Lib} {U : Unicode} {chans : Str → Prop} {V : Str → CType} {τ : Str → Option CType} {f : Forbidden}
    (hw : WordTypes U .ros chans V τ) (hc : ∀ e ∈ eventsOf f, chans e.channel.name)
    (h : RosLib L U V (fun ch => ∃ e ∈ eventsOf f, e.channel.name = ch)) : TraceLib (L.named τ) U .ros f := by
  refine ⟨h.std, fun e he => h.convert _ ⟨e, he, rfl⟩, fun _ => ⟨h.classes, fun f hf => ?_, fun e he => ?_⟩⟩
  · show L.takes (substQ τ f.1) f.2 = true
    rw [substQ_ros f hf]
    exact h.functions f hf
  · have := h.advertise _ ⟨e, he, rfl⟩
    rw [← advertise_type hw (hc e he)] at this
    exact this

theorem treeLib_named {L : Lib} {U : Unicode} {chans : Str → Prop} {V : Str → CType} {τ : Str → Option CType} {root : Node}
    (hw : WordTypes U .ros chans V τ) (hc : ∀ e ∈ treeEvents root, chans e.channel.name)
    (h : RosLib L U V (fun ch => ∃ e ∈ treeEvents root, e.channel.name = ch)) : TreeLib (L.named τ) U .ros root := by
  refine ⟨h.std, fun e he => h.convert _ ⟨e, he, rfl⟩, fun _ => ⟨h.classes, fun f hf => ?_, fun e he => ?_⟩⟩
  · show L.takes (substQ τ f.1) f.2 = true
    rw [substQ_ros f hf]
    exact h.functions f hf
  · have := h.advertise _ ⟨e, he, rfl⟩
    rw [← advertise_type hw (hc e he)] at this
    exact this

theorem send_named {L : Lib} {U : Unicode} {chans : Str → Prop} {V : Str → CType} {τ : Str → Option CType}
    (hw : WordTypes U .ros chans V τ) {x : Channel × Value} (hc : chans x.1.name) :
    (sendEffect (L.named τ) U .ros x).subst τ = rosSend L U V x := by
  unfold sendEffect rosSend publisher
  rw [if_pos rfl, ← advertise_type hw hc]
  rfl

theorem args_named {L : Lib} {U : Unicode} {τ : Str → Option CType} {b : Callback} {args : List Cpp.Val} (h : ArgsOf L U .ros b args) :
    ArgsOf (L.named τ) U .ros b args := by
  cases b <;> exact h

/-- Names of configured types are not empty -/
theorem word_named {c : CppConfig.Config} {U : Unicode} {v : Variant} {chans : Str → Prop} {base : Str → RsType → Prop} {V : Str → CType}
    {τ : Str → Option CType} (hV : ChannelTypes U c chans base V) (hw : WordTypes U v chans V τ) (hall : ∀ ch, chans ch → Overridden c ch) :
    ∀ w s, τ w = some s → s.name ≠ [] := by
  intro w s hs
  obtain ⟨ch, h1, h2⟩ := hw.other w s hs
  obtain ⟨ty, h3, h4⟩ := hall ch h1
  have hn := type_named (Subst.spells_inv (hV.spells ch ty h1 h3 h4)).2
  rcases h2 with rfl | rfl
  · rw [hw.value ch h1] at hs
    cases hs
    exact hn
  · rw [hw.msg ch h1] at hs
    cases hs
    unfold msgOf
    split
    · simp
    · exact hn

theorem sends_subst_ros {τ : Str → Option CType} (hτ : ∀ w s, τ w = some s → s.name ≠ []) (st : St) :
    (st.subst τ).eff.filter (isSend .ros) = (st.eff.filter (isSend .ros)).map (Effect.subst τ) := by
  show (st.eff.map (Effect.subst τ)).filter _ = _
  rw [List.filter_map]
  congr 1
  refine List.filter_congr fun e _ => ?_
  cases e with
  | out vs => rfl
  | call q args =>
    show (decide (Variant.ros = .ros) && decide (substQ τ q = [c!".publish"])) = (decide (Variant.ros = .ros) && decide (q = [c!".publish"]))
    congr 1
    refine decide_eq_decide.2 ⟨fun h => ?_, fun h => by rw [h]; rfl⟩
    unfold substQ at h
    split at h
    · split at h
      · next s hs =>
        split at h
        · injection h with h1 h2
          exact absurd h2 (hτ _ s hs)
        · exact h
      · exact h
    · exact h

theorem named_trace {traces : List Forbidden} {named : GoMap Str Forbidden} {name : Str} {f : Forbidden} (h : Forbidden.nameAll traces = some named)
    (hf : (name, f) ∈ named) : f ∈ traces := by
  obtain ⟨names, _, h2, _⟩ := nameAll_spec traces
  rw [h2] at h
  cases h
  exact (List.of_mem_zip hf).2

theorem transfer3 {r r' : Cpp.Res Cpp.Val} {st' : St} {f : St → St} (hok : ∀ x st, r = .ok x st → r' = .ok x (f st))
    (hw : ∀ st, r = .wait st → r' = .wait (f st)) (h : r = .wait st' ∨ ∃ k ∈ [0, 1, 2], r = .ok (.int k) st') :
    (r' = .wait (f st') ∨ ∃ k ∈ [0, 1, 2], r' = .ok (.int k) (f st')) ∧ (r' = .wait (f st') ↔ r = .wait st') ∧
      ∀ k, (r' = .ok (.int k) (f st') ↔ r = .ok (.int k) st') := by
  rcases h with h | ⟨k, hk, h⟩
  · rw [hw _ h, h]; simp
  · rw [hok _ _ h, h]
    refine ⟨.inr ⟨k, hk, rfl⟩, by simp, by simp⟩

theorem said_subst_ros {U : Unicode} (τ : Str → Option CType) (st : St) {before : List Effect} {name : Str} {s : Status}
    {os : List (Str × Outcome)} (h : st.eff = before ++ outcomesSaid U .ros name s os) :
    (st.subst τ).eff = before.map (Effect.subst τ) ++ outcomesSaid U .ros name s os := by
  show st.eff.map (Effect.subst τ) = _
  rw [h, List.map_append]
  congr 1
  have : ∀ e ∈ outcomesSaid U .ros name s os, Effect.subst τ e = e := by
    intro e he
    unfold outcomesSaid logEff at he
    simp only [List.mem_append, List.mem_cons, List.not_mem_nil, or_false, List.mem_map] at he
    rcases he with (rfl | rfl) | ⟨_, _, rfl⟩ <;> rfl
  exact (List.map_congr_left this).trans (List.map_id _)

end Spec.Cpp.Pre

section trees

variable {T : TextLayer} {env : Env} {argv : List Str} {path text stms config output : Str} {input : Json} {s : Validate.Suite} {clean : Bool} {fs' : Fs}

/-- C117: from a suite of trees to the programs as a compiler sees them, in both variants: for every test that can be written in C++ the output
directory holds a program that main.cpp and rtcg.cpp make with what they include, and it does what the program of C115 does. -/
theorem C117_trees (hU : T.unicode.AsciiOK) (ha : InputArg argv path) (hr : Reads T env path text)
    (hp : Json.parse text = .ok input) (hd : Json.decodeSuite input = .ok s)
    (hs : ∀ name root, (name, some root) ∈ s → Spec.Plain name ∧ NoIds root ∧ AllEvents (fun e => e.channel.name ≠ []) root)
    (hdate : OneLine T.date)
    (hmake : makeStms T env argv = (stms, .ok ()))
    (hgen : gen T { env with stdin := stms } clean output [config] = (fs', .ok ())) :
    ∃ fs cfg, Gen.maybeClean env.cwd env.fs clean (cleanPath output) = (fs, .ok ()) ∧ loadConfig T env.cwd fs (cleanPath config) = .ok cfg ∧
      ((cfg.cpps.map (·.variant)).Nodup → ∀ c ∈ cfg.cpps, ConvertNames T.unicode c (TreeChannel s) → GoodIncludes c →
        ∀ V, ChannelTypes T.unicode c (TreeChannel s)
          (fun ch => LeastUpper (fun ty => ∃ name root, (name, some root) ∈ s ∧ Carries root ch ty)) V →
        ∀ name root, (name, some root) ∈ s → Cpp.Plain name → TreeNames T.unicode c.variant root →
        (∀ t, TestOf root t → ¬ Defined T.unicode (TreeChannel s) t) →
        ∃ τ P P', WordTypes T.unicode c.variant (TreeChannel s) V τ ∧
          OnDiskWhole T fs' (locate env.cwd output ++ [c.variant.string]) name P ∧
          OnDiskLinked T fs' (locate env.cwd output ++ [c.variant.string]) name P' ∧ Renamed τ P P') := by
  obtain ⟨fs, cfg, vs, suite, h1, h2, h3, h4, h5, h7, h6⟩ := suite_texts hU ha hr hp hd hs hmake hgen
  refine ⟨fs, cfg, h1, h2, fun hv c hcc gs hi V hV name root hroot hplain hnames ht => ?_⟩
  obtain ⟨hvar, m, m₀, g1, g2, htx, g3⟩ := h6 hv name root hroot c hcc
  have good : GoodTest T.unicode T.date c name m := ⟨Suite.wellNamed hU h3 h4 g1 g2 hnames, hdate, hplain, gs.includes⟩
  have hcar : ∀ ch ty, SuiteCarries vs ch ty ↔ ∃ name root, (name, some root) ∈ s ∧ Carries root ch ty := by
    intro ch ty
    constructor
    · rintro ⟨⟨k, t⟩, q1, q2⟩
      exact ⟨k, t.root, (h5 _ _).1 q1, q2⟩
    · rintro ⟨k, root, q1, q2⟩
      exact ⟨(k, ⟨root⟩), (h5 _ ⟨root⟩).2 q1, q2⟩
  have hchan : ∀ ch, ChannelOf suite ch ↔ TreeChannel s ch := by
    intro ch
    have ht := made_typesAre h3 ch
    have hcar : (∃ ty, SuiteCarries vs ch ty) ↔ TreeChannel s ch := by
      constructor
      · rintro ⟨ty, h⟩
        obtain ⟨k, root, q1, q2⟩ := (hcar ch ty).1 h
        exact ⟨k, root, ty, q1, q2⟩
      · rintro ⟨k, root, ty, q1, q2⟩
        exact ⟨ty, (hcar ch ty).2 ⟨k, root, q1, q2⟩⟩
    rw [← hcar]
    constructor
    · rintro ⟨t, h⟩
      refine Classical.byContradiction fun hn => ?_
      rw [ht.1.2 hn] at h
      cases h
    · intro h
      cases hg : GoMap.get? suite.types ch with
      | none => exact absurd h (ht.1.1 hg)
      | some t => exact ⟨t, hg⟩
  have hce : TreeChannel s = ChannelOf suite := funext fun ch => propext (hchan ch).symm
  rw [hce] at gs ht ⊢
  have hV' := channelTypes_congr hV hchan (base' := fun ch t => GoMap.get? suite.types ch = some (some t)) (by
    intro ch t h
    obtain ⟨ty, e, hl⟩ := (made_typesAre h3 ch).2 _ h
    cases e
    have : SuiteCarries vs ch = fun ty => ∃ name root, (name, some root) ∈ s ∧ Carries root ch ty := funext fun ty => propext (hcar ch ty)
    rw [← this]
    exact hl)
  exact onDisk hU hvar h3 h4 g1 good gs hi (fun t h => ht t ((Suite.tests g2 t).1 h)) hV' (h7 hv c hcc) htx

/-- C117: from a suite of trees to what the ROS programs do, as a compiler sees them: as C112, but about the program that main.cpp and rtcg.cpp
make with what they include, if types are configured for all channels. -/
theorem C117_trees_ros (hU : T.unicode.AsciiOK) (ha : InputArg argv path) (hr : Reads T env path text)
    (hp : Json.parse text = .ok input) (hd : Json.decodeSuite input = .ok s)
    (hs : ∀ name root, (name, some root) ∈ s → Spec.Plain name ∧ NoIds root ∧ AllEvents (fun e => e.channel.name ≠ []) root)
    (hdate : OneLine T.date)
    (hmake : makeStms T env argv = (stms, .ok ()))
    (hgen : gen T { env with stdin := stms } clean output [config] = (fs', .ok ())) :
    ∃ fs cfg, Gen.maybeClean env.cwd env.fs clean (cleanPath output) = (fs, .ok ()) ∧ loadConfig T env.cwd fs (cleanPath config) = .ok cfg ∧
      ((cfg.cpps.map (·.variant)).Nodup → ∀ c ∈ cfg.cpps, c.variant = .ros → ConvertNames T.unicode c (TreeChannel s) → GoodIncludes c →
        (∀ ch, TreeChannel s ch → Overridden c ch) →
        ∀ V, ChannelTypes T.unicode c (TreeChannel s)
          (fun ch => LeastUpper (fun ty => ∃ name root, (name, some root) ∈ s ∧ Carries root ch ty)) V →
        ∀ name root, (name, some root) ∈ s → Cpp.Plain name → TreeNames T.unicode .ros root →
        (∀ t, TestOf root t → ¬ Defined T.unicode (TreeChannel s) t) →
        ∃ P, OnDiskLinked T fs' (locate env.cwd output ++ [c!"ros"]) name P ∧
          ∀ L, RosLib L T.unicode V (fun ch => ∃ e ∈ treeEvents root, e.channel.name = ch) →
          ∀ xs : List (Callback × List Cpp.Val), (∀ x ∈ xs, TreeCallback root x.1 ∧ ArgsOf L T.unicode .ros x.1 x.2) →
          ∀ argc argv input fuel depth, 6 ≤ depth →
          let cbs := xs.map (·.1)
          let seen := cbs.filter (sees (treeEvents root))
          ∃ st' status, runMain P L fuel depth [argc, argv] input (xs.map eventOf) =
              (if status.isRunning then .wait st' else .ok (.int status.exitCode) st') ∧
            (status = .fail → ∃ p n, nodeAt root p = some n ∧ n.outcome ≠ oFail ∧ Fails n ∧ seenTo root p <+: seen) ∧
            ((RootInput root → StartedIn (treeEvents root) cbs) →
              ∃ p n after, Followed root seen p ∧ nodeAt root p = some n ∧ seen = seenTo root p ++ after ∧ EndsAt n after status ∧
                (Deterministic root → st'.eff.filter (isSend .ros) = (offersTo root p).map (rosSend L T.unicode V)) ∧
                (status.isRunning = false → ∃ (tests : List Str) (before : List Effect), tests.Nodup ∧ (∀ t, t ∈ tests ↔ TestOf root t) ∧
                  st'.eff = before ++ outcomesSaid T.unicode .ros name status (tests.map fun t => (t, (verdictTo root t p).getD oUnset))))) := by
  obtain ⟨fs, cfg, h1, h2, h3⟩ := C117_trees hU ha hr hp hd hs hdate hmake hgen
  obtain ⟨fs₂, cfg₂, i1, i2, i3⟩ := C112_ros hU ha hr hp hd hs hdate hmake hgen
  rw [h1] at i1
  cases i1
  rw [h2] at i2
  cases i2
  obtain ⟨fs₃, cfg₃, i1, i2, i4⟩ := C115_trees_configured hU ha hr hp hd hs hmake hgen
  rw [h1] at i1
  cases i1
  rw [h2] at i2
  cases i2
  refine ⟨fs, cfg, h1, h2, fun hv c hcc hcv gs hi hall V hV name root hroot hplain hnames ht => ?_⟩
  obtain ⟨τ, P, P', k1, k2, k3, k4⟩ := h3 hv c hcc gs hi V hV name root hroot hplain (by rw [hcv]; exact hnames) ht
  obtain ⟨P₀, j1, j2⟩ := i3 hv c hcc hcv gs.includes name root hroot hplain hnames
  have j3 := i4 hv c hcc gs hall name P₀ (by rw [show c.variant.string = c!"ros" by rw [hcv]; rfl]; exact j1)
  rw [hcv] at k1
  have hP := onDiskWhole_fun j3 k2
  subst hP
  rw [show c.variant.string = c!"ros" by rw [hcv]; rfl] at k3
  have hown : ∀ e ∈ treeEvents root, TreeChannel s e.channel.name := by
    obtain ⟨_, _, vs, suite, r1, q2, q3, q4, q5, _, q6⟩ := suite_texts hU ha hr hp hd hs hmake hgen
    rw [r1] at h1
    cases h1
    rw [q2] at h2
    cases h2
    obtain ⟨hvar, m, m₀, g1, g2, _, _⟩ := q6 hv name root hroot c hcc
    intro e he
    obtain ⟨st, hst, x, hx, hc⟩ := (Suite.uses g2).2 ⟨e, he, rfl⟩
    obtain ⟨ty, q1, _⟩ := Good.made_types q3 g1 c st hst x hx
    rw [hc] at q1
    obtain ⟨ty, ⟨k, t⟩, q8, q9⟩ : ∃ ty, SuiteCarries vs e.channel.name ty := by
      refine Classical.byContradiction fun hn => ?_
      rw [(made_typesAre q3 _).1.2 hn] at q1
      cases q1
    exact ⟨k, t.root, ty, (q5 _ _).1 q8, q9⟩
  refine ⟨P', k3, fun L hL xs hx argc argv input fuel depth hd => ?_⟩
  obtain ⟨st', status, l1, l2, l3⟩ := j2 (L.named τ) (treeLib_named k1 hown hL) xs (fun x hxx => ⟨(hx x hxx).1, args_named (hx x hxx).2⟩)
    argc argv input fuel depth hd
  refine ⟨St.subst τ st', status, ?_, l2, fun hst => ?_⟩
  · cases hr : status.isRunning with
    | true =>
      rw [hr, if_pos rfl] at l1
      rw [if_pos rfl]
      exact (k4 _ _ _ _ _ _).2 _ l1
    | false =>
      rw [hr, if_neg (by decide)] at l1
      rw [if_neg (by decide)]
      exact (k4 _ _ _ _ _ _).1 _ _ l1
  · obtain ⟨p, n, after, e1, e2, e3, e4, e5, e6⟩ := l3 hst
    refine ⟨p, n, after, e1, e2, e3, e4, fun hdet => ?_, fun hno => ?_⟩
    · rw [sends_subst_ros (word_named hV k1 hall), e5 hdet, List.map_map]
      refine List.map_congr_left fun x hx => ?_
      obtain ⟨e, he, hc⟩ := mem_offersTo p root hx
      exact send_named k1 (by rw [← hc]; exact hown e he)
    · obtain ⟨tests, before, f1, f2, f3⟩ := e6 hno
      exact ⟨tests, _, f1, f2, said_subst_ros τ st' f3⟩

/-- C117: from a suite of trees to what the animations do, as a compiler sees them: as C115, but about the program that main.cpp and rtcg.cpp
make with what they include. -/
theorem C117_trees_animate (hU : T.unicode.AsciiOK) (ha : InputArg argv path) (hr : Reads T env path text)
    (hp : Json.parse text = .ok input) (hd : Json.decodeSuite input = .ok s)
    (hs : ∀ name root, (name, some root) ∈ s → Spec.Plain name ∧ NoIds root ∧ AllEvents (fun e => e.channel.name ≠ []) root)
    (hdate : OneLine T.date)
    (hmake : makeStms T env argv = (stms, .ok ()))
    (hgen : gen T { env with stdin := stms } clean output [config] = (fs', .ok ())) :
    ∃ fs cfg, Gen.maybeClean env.cwd env.fs clean (cleanPath output) = (fs, .ok ()) ∧ loadConfig T env.cwd fs (cleanPath config) = .ok cfg ∧
      ((cfg.cpps.map (·.variant)).Nodup → ∀ c ∈ cfg.cpps, c.variant = .animate → ConvertNames T.unicode c (TreeChannel s) → GoodIncludes c →
        (∃ V, ChannelTypes T.unicode c (TreeChannel s)
          (fun ch => LeastUpper (fun ty => ∃ name root, (name, some root) ∈ s ∧ Carries root ch ty)) V) →
        ∀ name root, (name, some root) ∈ s → Cpp.Plain name → TreeNames T.unicode .animate root → Deterministic root → ¬ Fails root →
        (∀ t, TestOf root t → ¬ Defined T.unicode (TreeChannel s) t) →
        ∃ P, OnDiskLinked T fs' (locate env.cwd output ++ [c!"animate"]) name P ∧
          ∀ L, WholeLib L T.unicode c (fun ch => ∃ e ∈ treeEvents root, e.channel.name = ch) → ∀ ws : List (Str × Value),
          (∀ w ∈ ws, ∀ e ∈ treeEvents root, e.channel.kind ≠ kIn → e.channel.name = w.1 →
            (∃ ty, LeastUpper (fun ty => ∃ name root, (name, some root) ∈ s ∧ Carries root w.1 ty) ty ∧ FitsType ty w.2) ∧
            Keeps L T.unicode c w.1 w.2) →
          let cbs := treeMeanings root [] ws
          let seen := cbs.filter (sees (treeEvents root))
          ∀ rest events fuel depth, (TreeOngoing root cbs → rest = []) → ws.length < fuel → 7 ≤ depth →
          let r := runMain P L fuel depth [] (treeTyping root [] ws ++ rest) events
          ∃ st', (r = .wait st' ∨ ∃ k ∈ [0, 1], r = .ok (.int k) st') ∧
            (r = .wait st' ↔ TreeOngoing root cbs) ∧
            (r = .ok (.int 1) st' ↔ ∃ p n, nodeAt root p = some n ∧ n.outcome ≠ oFail ∧ Fails n ∧ seenTo root p <+: seen) ∧
            st'.input = rest ∧
            ((RootInput root → StartedIn (treeEvents root) cbs) → ∃ p n after status, Followed root seen p ∧ nodeAt root p = some n ∧
              seen = seenTo root p ++ after ∧ EndsAt n after status ∧
              st'.eff.filter (isSend .animate) = (offersTo root p).map (wholeSend L T.unicode c) ∧
              (¬ TreeOngoing root cbs → ∃ (tests : List Str) (before : List Effect), tests.Nodup ∧ (∀ t, t ∈ tests ↔ TestOf root t) ∧
                st'.eff = before ++ outcomesSaid T.unicode .animate name status (tests.map fun t => (t, (verdictTo root t p).getD oUnset))))) := by
  obtain ⟨fs, cfg, h1, h2, h3⟩ := C117_trees hU ha hr hp hd hs hdate hmake hgen
  obtain ⟨fs₂, cfg₂, i1, i2, i3⟩ := C115_trees hU ha hr hp hd hs hdate hmake hgen
  rw [h1] at i1
  cases i1
  rw [h2] at i2
  cases i2
  refine ⟨fs, cfg, h1, h2, fun hv c hcc hcv gs hi hV name root hroot hplain hnames hdet hnf ht => ?_⟩
  obtain ⟨V, hV⟩ := hV
  obtain ⟨τ, P, P', _, k2, k3, k4⟩ := h3 hv c hcc gs hi V hV name root hroot hplain (by rw [hcv]; exact hnames) ht
  obtain ⟨P₀, j1, j2⟩ := i3 hv c hcc hcv gs name root hroot hplain hnames hdet hnf
  rw [show c.variant.string = c!"animate" by rw [hcv]; rfl] at k2 k3
  have hP := onDiskWhole_fun j1 k2
  subst hP
  refine ⟨P', k3, fun L hL ws hws rest events fuel depth hrest hfuel hdepth => ?_⟩
  obtain ⟨st', l1, l2, l3, l4, l5⟩ := j2 (L.named τ) (wholeLib_named hL) ws hws rest events fuel depth hrest hfuel hdepth
  obtain ⟨t1, t2, t3⟩ := transfer (fun x st hr => (k4 _ _ _ _ _ _).1 x st hr) (fun st hr => (k4 _ _ _ _ _ _).2 st hr) l1
  refine ⟨_, t1, t2.trans l2, t3.trans l3, l4, fun hst => ?_⟩
  obtain ⟨p, n, after, status, e1, e2, e3, e4, e5, e6⟩ := l5 hst
  refine ⟨p, n, after, status, e1, e2, e3, e4, ?_, fun hno => ?_⟩
  · rw [sends_subst, e5, List.map_map]
    rfl
  · obtain ⟨tests, before, f1, f2, f3⟩ := e6 hno
    exact ⟨tests, _, f1, f2, said_subst τ st' f3⟩

end trees

section traces

variable {T : TextLayer} {env : Env} {config trace file : Str} {traces : List Forbidden} {fs' : Fs}

/-- C117: from a file of forbidden traces to the programs as a compiler sees them, in both variants. -/
theorem C117_traces (hU : T.unicode.AsciiOK) (hc : config.head? ≠ some '-') (hr : Reads T env trace file)
    (h : Forbidden.read file = some (.ok traces))
    (hev : ∀ f ∈ traces, ∀ e ∈ eventsOf f, e.channel.name ≠ [] ∧ e.value ≠ .none)
    (hty : ¬ ∃ chan, Conflict (fun ty => ∃ f ∈ traces, TraceCarries f chan ty))
    (hpl : ∀ f ∈ traces, f.name = [] ∨ Spec.Plain f.name) (hdate : OneLine T.date)
    (hrun : Program.script T env [config, trace] = (fs', 0)) :
    ∃ cfg named, loadConfig T env.cwd env.fs (cleanPath config) = .ok cfg ∧ Forbidden.nameAll traces = some named ∧
      ((cfg.cpps.map (·.variant)).Nodup → ∀ c ∈ cfg.cpps, ConvertNames T.unicode c (TraceChannel traces) → GoodIncludes c →
        ∀ V, ChannelTypes T.unicode c (TraceChannel traces)
          (fun ch => LeastUpper (fun ty => ∃ f ∈ traces, TraceCarries f ch ty)) V →
        ∀ name f, (name, f) ∈ named → TraceNames T.unicode c.variant f name → ¬ Defined T.unicode (TraceChannel traces) name →
        ∃ τ P P', WordTypes T.unicode c.variant (TraceChannel traces) V τ ∧
          OnDiskWhole T fs' (locate env.cwd c!"out" ++ [c.variant.string]) name P ∧
          OnDiskLinked T fs' (locate env.cwd c!"out" ++ [c.variant.string]) name P' ∧ Renamed τ P P') := by
  obtain ⟨cfg, named, ts, suite, h1, h2, h3, h4, h5, h7, h6⟩ := script_texts hU hc hr h hev hty hpl hrun
  refine ⟨cfg, named, h1, h2, fun hv c hcc gs hi V hV name f hf hnames ht => ?_⟩
  obtain ⟨hvar, m, m₀, g1, g2, g3, _, htx, g6⟩ := h6 hv name f hf c hcc
  have good : GoodTest T.unicode T.date c name m := Trace.good hU h3 h4 g1 g2 g3 hnames hdate gs.includes
  have hchan : ∀ ch, ChannelOf suite ch ↔ TraceChannel traces ch := by
    intro ch
    constructor
    · rintro ⟨t, h⟩
      obtain ⟨ty, f, q1, e, q2, q3, _⟩ : ∃ ty, ∃ f ∈ traces, TraceCarries f ch ty := by
        refine Classical.byContradiction fun hn => ?_
        rw [(h5 ch).1.2 hn] at h
        cases h
      exact ⟨f, q1, e, q2, q3⟩
    · rintro ⟨f, q1, e, q2, q3⟩
      cases hg : GoMap.get? suite.types ch with
      | none => exact absurd ⟨_, f, q1, e, q2, q3, rfl⟩ ((h5 ch).1.1 hg)
      | some t => exact ⟨t, hg⟩
  have hce : TraceChannel traces = ChannelOf suite := funext fun ch => propext (hchan ch).symm
  rw [hce] at gs ht ⊢
  have hV' := channelTypes_congr hV hchan (base' := fun ch t => GoMap.get? suite.types ch = some (some t)) (by
    intro ch t h
    obtain ⟨ty, e, hl⟩ := (h5 ch).2 _ h
    cases e
    exact hl)
  refine onDisk hU hvar h3 h4 g1 good gs hi (fun t h => ?_) hV' (h7 hv c hcc) htx
  rw [g3, List.mem_singleton] at h
  rw [h]
  exact ht

/-- C117: from a file of forbidden traces to what the ROS programs do, as a compiler sees them: as C110, but about the program that main.cpp and
rtcg.cpp make with what they include, if types are configured for all channels. -/
theorem C117_traces_ros (hU : T.unicode.AsciiOK) (hc : config.head? ≠ some '-') (hr : Reads T env trace file)
    (h : Forbidden.read file = some (.ok traces))
    (hev : ∀ f ∈ traces, ∀ e ∈ eventsOf f, e.channel.name ≠ [] ∧ e.value ≠ .none)
    (hty : ¬ ∃ chan, Conflict (fun ty => ∃ f ∈ traces, TraceCarries f chan ty))
    (hpl : ∀ f ∈ traces, f.name = [] ∨ Spec.Plain f.name) (hdate : OneLine T.date)
    (hrun : Program.script T env [config, trace] = (fs', 0)) :
    ∃ cfg named, loadConfig T env.cwd env.fs (cleanPath config) = .ok cfg ∧ Forbidden.nameAll traces = some named ∧
      ((cfg.cpps.map (·.variant)).Nodup → ∀ c ∈ cfg.cpps, c.variant = .ros → ConvertNames T.unicode c (TraceChannel traces) →
        GoodIncludes c → (∀ ch, TraceChannel traces ch → Overridden c ch) →
        ∀ V, ChannelTypes T.unicode c (TraceChannel traces)
          (fun ch => LeastUpper (fun ty => ∃ f ∈ traces, TraceCarries f ch ty)) V →
        ∀ name f, (name, f) ∈ named → TraceNames T.unicode .ros f name → ¬ Defined T.unicode (TraceChannel traces) name →
        ∃ P, OnDiskLinked T fs' (locate env.cwd c!"out" ++ [c!"ros"]) name P ∧
          ∀ L, RosLib L T.unicode V (fun ch => ∃ e ∈ eventsOf f, e.channel.name = ch) →
          ∀ xs : List (Callback × List Cpp.Val), (∀ x ∈ xs, TraceCallback f x.1 ∧ ArgsOf L T.unicode .ros x.1 x.2) →
          ∀ argc argv input fuel depth, 6 ≤ depth →
          let r := runMain P L fuel depth [argc, argv] input (xs.map eventOf)
          let seen := (xs.map (·.1)).filter (counts f)
          ∃ st', (r = .wait st' ∨ ∃ k ∈ [0, 1, 2], r = .ok (.int k) st') ∧
            (r = .wait st' ↔ seen <+: Spec.script f ∧ seen ≠ Spec.script f) ∧
            (r = .ok (.int 1) st' ↔ Spec.script f <+: seen) ∧
            (r = .ok (.int 2) st' ↔ Deviates (Spec.script f) seen .accepted) ∧
            ((StartsWithInput f → Started f (xs.map (·.1))) → st'.eff.filter (isSend .ros) =
              (inputsOf ((eventsOf f).take (progress (Spec.script f) seen + 1))).map (rosSend L T.unicode V))) := by
  obtain ⟨cfg, named, h1, h2, h3⟩ := C117_traces hU hc hr h hev hty hpl hdate hrun
  obtain ⟨cfg₂, named₂, i1, i2, i3⟩ := C110_ros hU hc hr h hev hty hpl hdate hrun
  rw [h1] at i1
  cases i1
  rw [h2] at i2
  cases i2
  obtain ⟨cfg₃, i1, i4⟩ := C115_traces_configured hU hc hr h hev hty hpl hrun
  rw [h1] at i1
  cases i1
  refine ⟨cfg, named, h1, h2, fun hv c hcc hcv gs hi hall V hV name f hf hnames ht => ?_⟩
  obtain ⟨τ, P, P', k1, k2, k3, k4⟩ := h3 hv c hcc gs hi V hV name f hf (by rw [hcv]; exact hnames) ht
  obtain ⟨P₀, j1, j2⟩ := i3 hv c hcc hcv gs.includes name f hf hnames
  have j3 := i4 hv c hcc gs hall name P₀ (by rw [show c.variant.string = c!"ros" by rw [hcv]; rfl]; exact j1)
  rw [hcv] at k1
  have hP := onDiskWhole_fun j3 k2
  subst hP
  rw [show c.variant.string = c!"ros" by rw [hcv]; rfl] at k3
  have hown : ∀ e ∈ eventsOf f, TraceChannel traces e.channel.name := fun e he => ⟨f, named_trace h2 hf, e, he, rfl⟩
  refine ⟨P', k3, fun L hL xs hx argc argv input fuel depth hd => ?_⟩
  obtain ⟨st', l1, l2, l3, l4, l5⟩ := j2 (L.named τ) (traceLib_named k1 hown hL) xs (fun x hxx => ⟨(hx x hxx).1, args_named (hx x hxx).2⟩)
    argc argv input fuel depth hd
  have key := transfer3 (fun x st hr => (k4 _ _ _ _ _ _).1 x st hr) (fun st hr => (k4 _ _ _ _ _ _).2 st hr) l1
  obtain ⟨t1, t2, t3⟩ := key
  refine ⟨_, t1, t2.trans l2, (t3 1).trans l3, (t3 2).trans l4, fun hst => ?_⟩
  rw [sends_subst_ros (word_named hV k1 hall), l5 hst, List.map_map]
  refine List.map_congr_left fun x hx => ?_
  unfold inputsOf at hx
  obtain ⟨e, he, rfl⟩ := List.mem_map.1 hx
  exact send_named k1 (hown e (List.mem_of_mem_take (List.mem_filter.1 he).1))

/-- C117: from a file of forbidden traces to what the animations do, as a compiler sees them: as C115, but about the program that main.cpp and
rtcg.cpp make with what they include. -/
theorem C117_traces_animate (hU : T.unicode.AsciiOK) (hc : config.head? ≠ some '-') (hr : Reads T env trace file)
    (h : Forbidden.read file = some (.ok traces))
    (hev : ∀ f ∈ traces, ∀ e ∈ eventsOf f, e.channel.name ≠ [] ∧ e.value ≠ .none)
    (hty : ¬ ∃ chan, Conflict (fun ty => ∃ f ∈ traces, TraceCarries f chan ty))
    (hpl : ∀ f ∈ traces, f.name = [] ∨ Spec.Plain f.name) (hdate : OneLine T.date)
    (hrun : Program.script T env [config, trace] = (fs', 0)) :
    ∃ cfg named, loadConfig T env.cwd env.fs (cleanPath config) = .ok cfg ∧ Forbidden.nameAll traces = some named ∧
      ((cfg.cpps.map (·.variant)).Nodup → ∀ c ∈ cfg.cpps, c.variant = .animate → ConvertNames T.unicode c (TraceChannel traces) →
        GoodIncludes c →
        (∃ V, ChannelTypes T.unicode c (TraceChannel traces) (fun ch => LeastUpper (fun ty => ∃ f ∈ traces, TraceCarries f ch ty)) V) →
        ∀ name f, (name, f) ∈ named → TraceNames T.unicode .animate f name → ¬ Defined T.unicode (TraceChannel traces) name →
        ∃ P, OnDiskLinked T fs' (locate env.cwd c!"out" ++ [c!"animate"]) name P ∧
          ∀ L, WholeLib L T.unicode c (fun ch => ∃ e ∈ eventsOf f, e.channel.name = ch) → ∀ ws : List (Str × Value),
          (∀ w ∈ ws, ∀ e ∈ eventsOf f, e.channel.kind ≠ kIn → e.channel.name = w.1 →
            (∃ ty, LeastUpper (fun ty => ∃ f ∈ traces, TraceCarries f w.1 ty) ty ∧ FitsType ty w.2) ∧ Keeps L T.unicode c w.1 w.2) →
          let cbs := meanings f [] ws
          let seen := cbs.filter (counts f)
          ∀ rest events fuel depth, (Ongoing f cbs → rest = []) → ws.length < fuel → 7 ≤ depth →
          let r := runMain P L fuel depth [] (typing f [] ws ++ rest) events
          ∃ st', (r = .wait st' ∨ ∃ k ∈ [0, 1], r = .ok (.int k) st') ∧
            (r = .wait st' ↔ Ongoing f cbs) ∧
            (r = .ok (.int 1) st' ↔ Spec.script f <+: seen) ∧
            st'.input = rest ∧
            ((StartsWithInput f → Started f cbs) → st'.eff.filter (isSend .animate) =
              (inputsOf ((eventsOf f).take (progress (Spec.script f) seen + 1))).map (wholeSend L T.unicode c))) := by
  obtain ⟨cfg, named, h1, h2, h3⟩ := C117_traces hU hc hr h hev hty hpl hdate hrun
  obtain ⟨cfg₂, named₂, i1, i2, i3⟩ := C115_traces hU hc hr h hev hty hpl hdate hrun
  rw [h1] at i1
  cases i1
  rw [h2] at i2
  cases i2
  refine ⟨cfg, named, h1, h2, fun hv c hcc hcv gs hi hV name f hf hnames ht => ?_⟩
  obtain ⟨V, hV⟩ := hV
  obtain ⟨τ, P, P', _, k2, k3, k4⟩ := h3 hv c hcc gs hi V hV name f hf (by rw [hcv]; exact hnames) ht
  obtain ⟨P₀, j1, j2⟩ := i3 hv c hcc hcv gs name f hf hnames
  rw [show c.variant.string = c!"animate" by rw [hcv]; rfl] at k2 k3
  have hP := onDiskWhole_fun j1 k2
  subst hP
  refine ⟨P', k3, fun L hL ws hws rest events fuel depth hrest hfuel hdepth => ?_⟩
  obtain ⟨st', l1, l2, l3, l4, l5⟩ := j2 (L.named τ) (wholeLib_named hL) ws hws rest events fuel depth hrest hfuel hdepth
  obtain ⟨t1, t2, t3⟩ := transfer (fun x st hr => (k4 _ _ _ _ _ _).1 x st hr) (fun st hr => (k4 _ _ _ _ _ _).2 st hr) l1
  refine ⟨_, t1, t2.trans l2, t3.trans l3, l4, fun hst => ?_⟩
  rw [sends_subst, l5 hst, List.map_map]
  rfl

end traces

/-! ### examples -/

/-- The types of the channels in the example: `Msg`, configured, for a; the default, `std::string`, for b -/
def exV (ch : Str) : CType := if ch = c!"a" then ⟨false, [c!"Msg"], []⟩ else ⟨false, [c!"std", c!"string"], []⟩

theorem exV_channels : ∀ ch, TraceChannel exTraces ch → ch = c!"a" ∨ ch = c!"b" := by
  have hall : ∀ f ∈ exTraces, ∀ e ∈ eventsOf f, e.channel.name = c!"a" ∨ e.channel.name = c!"b" := by decide
  rintro _ ⟨f, hf, e, he, rfl⟩
  exact hall f hf e he

theorem exV_undefined {w : Str} (h : w ≠ c!"RTCG_H_DEFINED" ∧ w ≠ c!"CONVERT_H_DEFINED" ∧
    ∀ ch ∈ [c!"a", c!"b"], w ≠ Rtcg.Cpp.channelValueType asciiUnicode ch ∧ w ≠ Rtcg.Cpp.channelMsgType asciiUnicode ch) :
    ¬ Defined asciiUnicode (TraceChannel exTraces) w := by
  rintro (h' | h' | ⟨ch, h1, h2⟩)
  · exact h.1 h'
  · exact h.2.1 h'
  · have := h.2.2 ch (by rcases exV_channels ch h1 with rfl | rfl <;> simp)
    rcases h2 with h2 | h2
    · exact this.1 h2
    · exact this.2 h2

theorem exV_types : ChannelTypes asciiUnicode ⟨Variant.animate, [], [⟨c!"a", c!"Msg"⟩], true, none⟩ (TraceChannel exTraces)
    (fun ch => LeastUpper (fun ty => ∃ f ∈ exTraces, TraceCarries f ch ty)) exV := by
  have hty : ∀ ch ty, TraceChannel exTraces ch → configuredType ⟨Variant.animate, [], [⟨c!"a", c!"Msg"⟩], true, none⟩ ch = some ty →
      ch = c!"a" ∧ ty = c!"Msg" := by
    intro ch ty h1 h2
    rcases exV_channels ch h1 with rfl | rfl
    · exact ⟨rfl, by revert h2; intro h2; exact (Option.some.inj (h2.symm.trans (by decide : _ = some c!"Msg")))⟩
    · exact absurd h2 (by rw [show configuredType ⟨Variant.animate, [], [⟨c!"a", c!"Msg"⟩], true, none⟩ c!"b" = none by decide]; simp)
  refine ⟨?_, ?_, ?_, fun h => absurd h (by decide)⟩
  · intro ch t h0 h1 h2
    rcases exV_channels ch h0 with rfl | rfl
    · exact absurd (by decide) h2
    · have hall : ∀ f ∈ exTraces, ∀ e ∈ eventsOf f, e.channel.name = c!"b" → e.value.type = RsType.enum := by decide
      have ht : SubType t RsType.enum := by
        refine h1.2 _ ?_
        rintro ty ⟨f, hf, e, he, hn, rfl⟩
        exact .inl (hall f hf e he hn)
      rcases ht with rfl | ⟨_, hk, _⟩
      · decide
      · exact absurd hk (by decide)
  · intro ch ty h1 h2 _
    obtain ⟨rfl, rfl⟩ := hty ch ty h1 h2
    exact ⟨by decide +kernel, rfl⟩
  · intro ch ty h1 h2 _ w hw
    obtain ⟨rfl, rfl⟩ := hty ch ty h1 h2
    have : lex c!"Msg" = [.word c!"Msg"] := by decide +kernel
    rw [this] at hw
    cases List.mem_singleton.1 hw
    exact exV_undefined (by decide)

theorem exNoB_lib : WholeLib exNoB exBothT.unicode ⟨Variant.animate, [], [⟨c!"a", c!"Msg"⟩], true, none⟩
    (fun ch => ∃ e ∈ eventsOf exTraces[0], e.channel.name = ch) := by
  refine ⟨fun _ _ => rfl, ?_⟩
  have hall : ∀ e ∈ eventsOf exTraces[0], Overridden ⟨Variant.animate, [], [⟨c!"a", c!"Msg"⟩], true, none⟩ e.channel.name →
      exNoB.takes [Rtcg.Cpp.convertTo exBothT.unicode e.channel.name] 1 = true ∧
      exNoB.takes [Rtcg.Cpp.convertFrom exBothT.unicode e.channel.name] 1 = true := by decide
  rintro _ ⟨e, he, rfl⟩
  exact hall e he

theorem exBoth_words : ∀ w ∈ [(c!"accept", Value.none), (c!"ready", .none), (c!"accept", .none), (c!"b", .enum c!"ok")],
    ∀ e ∈ eventsOf exTraces[0], e.channel.kind ≠ kIn → e.channel.name = w.1 →
    (∃ ty, LeastUpper (fun ty => ∃ f ∈ exTraces, TraceCarries f w.1 ty) ty ∧ FitsType ty w.2) ∧
    Keeps exNoB exBothT.unicode ⟨Variant.animate, [], [⟨c!"a", c!"Msg"⟩], true, none⟩ w.1 w.2 := by
  intro w hw e he hk hn
  have hb : e = ⟨⟨c!"b", .out⟩, .enum c!"ok"⟩ := by
    have : ∀ e ∈ eventsOf exTraces[0], e.channel.kind ≠ kIn → e = ⟨⟨c!"b", .out⟩, .enum c!"ok"⟩ := by decide
    exact this e he hk
  subst hb
  have hw : w = (c!"b", .enum c!"ok") := by revert w; decide
  subst hw
  refine ⟨⟨(Value.enum c!"ok").type, ⟨?_, ?_⟩, by unfold FitsType; decide⟩, fun ho => absurd ho (by decide)⟩
  · rintro ty ⟨f, hf, e, he, h1, rfl⟩
    have : ∀ f ∈ exTraces, ∀ e ∈ eventsOf f, e.channel.name = c!"b" → e.value.type = (Value.enum c!"ok").type := by decide
    rw [this f hf e he h1]
    exact .inl rfl
  · intro u hu
    exact hu _ ⟨exTraces[0], by simp [exTraces], ⟨⟨c!"b", .out⟩, .enum c!"ok"⟩, by simp [exTraces, eventsOf], rfl, rfl⟩

/-- The hypotheses of C117 about traces are met: in the example of C115, the program that main.cpp and rtcg.cpp make with what they include,
where b's messages and values are `std::string`s and a's are `Msg`s.  It does what the example of C115 does. -/
example : ∃ fs' P, Program.script exBothT ⟨[], exBothFs, []⟩ [c!"cfg.xml", c!"traces.csv"] = (fs', 0) ∧
    OnDiskLinked exBothT fs' [c!"out", c!"animate"] c!"x" P ∧
    ∃ st', runMain P exNoB 6 7 [] [c!"accept", c!"ready", c!"accept", c!"b", c!"ok", c!"more"] [] = .ok (.int 1) st' ∧ st'.input = [c!"more"] ∧
      st'.eff.filter (isSend .animate) = [.out [.glob [c!"std", c!"cerr"], .str c!"[info] ",
        .str c!"(Actual value received by SUT on a after conversion: ", .int 2, .str c!")", .glob [c!"std", c!"endl"]]] := by
  obtain ⟨fs', hrun⟩ := exBoth_succeeds
  obtain ⟨cfg, named, h1, h2, h3⟩ := C117_traces_animate (T := exBothT) asciiUnicode_ok (by decide) exBoth_reads exFile_read exTraces_events
    exTraces_types (by decide) (by unfold OneLine; decide) hrun
  rw [exBoth_loads] at h1
  cases h1
  have hn : Forbidden.nameAll exTraces = some [(c!"x", exTraces[0]), (c!"test0", exTraces[1])] := by decide +kernel
  rw [hn] at h2
  cases h2
  obtain ⟨P, hP, hL⟩ := h3 (by decide) _ (List.mem_cons_of_mem _ (List.mem_cons_self ..)) rfl (exBoth_convert _)
    (fun _ h => absurd h (by simp)) ⟨exV, exV_types⟩ c!"x" exTraces[0] (List.mem_cons_self ..) (exBoth_names _) (exV_undefined (by decide))
  refine ⟨fs', P, hrun, hP, ?_⟩
  obtain ⟨st', _, _, k3, k4, k5⟩ := hL exNoB exNoB_lib [(c!"accept", .none), (c!"ready", .none), (c!"accept", .none), (c!"b", .enum c!"ok")]
    exBoth_words [c!"more"] [] 6 7 (fun h => absurd h (by decide)) (by decide) (Nat.le_refl 7)
  refine ⟨st', k3.2 (by decide), k4, (k5 (fun _ => by decide)).trans ?_⟩
  decide

/-- The types of the channels in the example about trees -/
def exW (ch : Str) : CType := if ch = c!"a" then ⟨false, [c!"Msg"], []⟩ else ⟨false, [c!"unsigned int"], []⟩

theorem exW_channels : ∀ ch, TreeChannel exSuite ch → ch = c!"a" ∨ ch = c!"b" := by
  rintro _ ⟨_, _, _, h1, p, n, e, h2, _, h3, rfl, _⟩
  obtain ⟨_, h1⟩ := exSuite_tree h1
  cases h1
  have hall : ∀ x ∈ preorder [] exShared, ∀ e ∈ x.2.event, e.channel.name = c!"a" ∨ e.channel.name = c!"b" := by decide
  exact hall (p, n) (mem_preorder.2 ⟨p, by simp, h2⟩) e h3

theorem exW_undefined {w : Str} (h : w ≠ c!"RTCG_H_DEFINED" ∧ w ≠ c!"CONVERT_H_DEFINED" ∧
    ∀ ch ∈ [c!"a", c!"b"], w ≠ Rtcg.Cpp.channelValueType asciiUnicode ch ∧ w ≠ Rtcg.Cpp.channelMsgType asciiUnicode ch) :
    ¬ Defined asciiUnicode (TreeChannel exSuite) w := by
  rintro (h' | h' | ⟨ch, h1, h2⟩)
  · exact h.1 h'
  · exact h.2.1 h'
  · have := h.2.2 ch (by rcases exW_channels ch h1 with rfl | rfl <;> simp)
    rcases h2 with h2 | h2
    · exact this.1 h2
    · exact this.2 h2

theorem exW_types : ChannelTypes asciiUnicode ⟨Variant.animate, [], [⟨c!"a", c!"Msg"⟩], true, none⟩ (TreeChannel exSuite)
    (fun ch => LeastUpper (fun ty => ∃ name root, (name, some root) ∈ exSuite ∧ Carries root ch ty)) exW := by
  have hty : ∀ ch ty, TreeChannel exSuite ch → configuredType ⟨Variant.animate, [], [⟨c!"a", c!"Msg"⟩], true, none⟩ ch = some ty →
      ch = c!"a" ∧ ty = c!"Msg" := by
    intro ch ty h1 h2
    rcases exW_channels ch h1 with rfl | rfl
    · exact ⟨rfl, by revert h2; intro h2; exact (Option.some.inj (h2.symm.trans (by decide : _ = some c!"Msg")))⟩
    · exact absurd h2 (by rw [show configuredType ⟨Variant.animate, [], [⟨c!"a", c!"Msg"⟩], true, none⟩ c!"b" = none by decide]; simp)
  refine ⟨?_, ?_, ?_, fun h => absurd h (by decide)⟩
  · intro ch t h0 h1 h2
    rcases exW_channels ch h0 with rfl | rfl
    · exact absurd (by decide) h2
    · have hall : ∀ x ∈ preorder [] exShared, ∀ e ∈ x.2.event, e.value.type = (Value.int 1).type := by decide
      obtain ⟨name, root, ty, k1, k2⟩ := h0
      obtain ⟨_, k3⟩ := exSuite_tree k1
      cases k3
      have h3 := h1.1 _ ⟨name, _, k1, k2⟩
      have ht : SubType t (Value.int 1).type := by
        refine h1.2 _ ?_
        rintro ty ⟨name, root, h1, p, n, e, h2, _, h3, h4, rfl⟩
        obtain ⟨_, h1⟩ := exSuite_tree h1
        cases h1
        exact .inl (hall (p, n) (mem_preorder.2 ⟨p, by simp, h2⟩) e h3)
      obtain ⟨p, n, e, q1, _, q2, q3, q4⟩ := k2
      rw [hall (p, n) (mem_preorder.2 ⟨p, by simp, q1⟩) e q2] at q4
      subst q4
      have : t = (Value.int 1).type := by
        rcases ht with rfl | ⟨_, hk, hd⟩
        · rfl
        · rcases h3 with rfl | ⟨_, hk', hd'⟩
          · rfl
          · obtain ⟨k, ⟨d⟩⟩ := t
            cases hk'
            have : d = (Value.int 1).type.domain.val := UInt8.le_antisymm hd hd'
            subst this
            rfl
      subst this
      decide
  · intro ch ty h1 h2 _
    obtain ⟨rfl, rfl⟩ := hty ch ty h1 h2
    exact ⟨by decide +kernel, rfl⟩
  · intro ch ty h1 h2 _ w hw
    obtain ⟨rfl, rfl⟩ := hty ch ty h1 h2
    have : lex c!"Msg" = [.word c!"Msg"] := by decide +kernel
    rw [this] at hw
    cases List.mem_singleton.1 hw
    exact exW_undefined (by decide)

/-- … and so are those about trees: the animation of this tree, with the same libraries. -/
example : ∃ stms fs' P, makeStms exBothT ⟨[], exBothFs, exSuiteText⟩ [c!"rtcg-make-stms"] = (stms, .ok ()) ∧
    gen exBothT ⟨[], exBothFs, stms⟩ false c!"out" [c!"cfg.xml"] = (fs', .ok ()) ∧ OnDiskLinked exBothT fs' [c!"out", c!"animate"] c!"x" P ∧
    ∃ st', runMain P exNoB 5 7 [] [c!"ready", c!"accept", c!"b", c!"3", c!"b", c!"4", c!"more"] [] = .ok (.int 1) st' ∧ st'.input = [c!"more"] := by
  obtain ⟨stms, fs', hm, hg⟩ := exSuite_succeeds
  obtain ⟨input, hp, hd⟩ := exSuite_parse
  obtain ⟨fs, cfg, h1, h2, h3⟩ := C117_trees_animate (T := exBothT) (env := ⟨[], exBothFs, exSuiteText⟩) (argv := [c!"rtcg-make-stms"]) (path := c!"-") asciiUnicode_ok
    (.inl ⟨_, rfl, rfl⟩) (.inl ⟨by decide, rfl⟩) hp hd (fun name root h => by
      obtain ⟨h1, h2⟩ := exSuite_tree h
      cases h2
      rw [h1]
      exact ⟨by unfold Spec.Plain; decide, noIds_of _ (by decide), fun p n e h1 h2 => (exShared_events p n e h1 h2).1⟩)
    (by unfold OneLine; decide) hm hg
  have hfs : fs = exBothFs := by
    unfold Gen.maybeClean at h1
    simp at h1
    exact h1.symm
  subst hfs
  rw [exBoth_loads] at h2
  cases h2
  obtain ⟨P, hP, hL⟩ := h3 (by decide) _ (List.mem_cons_of_mem _ (List.mem_cons_self ..)) rfl (exShared_convert _) (fun _ h => absurd h (by simp))
    ⟨exW, exW_types⟩ c!"x" exShared
    (List.mem_singleton.2 rfl) (by unfold Cpp.Plain; decide) (exShared_names _) exShared_deterministic (by decide) (fun t h => by
      rcases exShared_tests h with rfl | rfl <;> exact exW_undefined (by decide))
  refine ⟨stms, fs', P, hm, hg, hP, ?_⟩
  obtain ⟨t1, t2⟩ := exShared_typing
  have hx : ∀ w ∈ exWords, ∀ e ∈ treeEvents exShared, e.channel.kind ≠ kIn → e.channel.name = w.1 →
      (∃ ty, LeastUpper (fun ty => ∃ name root, (name, some root) ∈ exSuite ∧ Carries root w.1 ty) ty ∧ FitsType ty w.2) ∧
      Keeps exNoB exBothT.unicode ⟨Variant.animate, [], [⟨c!"a", c!"Msg"⟩], true, none⟩ w.1 w.2 := by
    intro w hw e he hk hn
    have hb : w.1 = c!"b" := by
      have : ∀ e ∈ treeEvents exShared, e.channel.kind ≠ kIn → e.channel.name = c!"b" := by decide
      rw [← hn]
      exact this e he hk
    have hfit : FitsType (Value.int 1).type w.2 := by
      unfold exWords at hw
      simp only [List.mem_cons, List.not_mem_nil, or_false] at hw
      rcases hw with rfl | rfl | rfl | rfl
      · exact absurd hb (by decide)
      · exact absurd hb (by decide)
      · exact .inr ⟨by decide, by decide⟩
      · exact .inr ⟨by decide, by decide⟩
    refine ⟨⟨(Value.int 1).type, ⟨?_, ?_⟩, hfit⟩, fun ho => absurd ho (by rw [hb]; decide)⟩
    · rintro ty ⟨name, root, h1, p, n, e, h2, _, h3, h4, rfl⟩
      obtain ⟨_, h1⟩ := exSuite_tree h1
      cases h1
      have hall : ∀ x ∈ preorder [] exShared, ∀ e ∈ x.2.event, e.value.type = (Value.int 1).type := by decide
      rw [hall (p, n) (mem_preorder.2 ⟨p, by simp, h2⟩) e h3]
      exact .inl rfl
    · intro u hu
      exact hu _ ⟨c!"x", exShared, List.mem_singleton.2 rfl, [0, 0], _, ⟨⟨c!"b", .out⟩, .int 2⟩, rfl, by decide, rfl, hb.symm, by decide⟩
  have hfail : ∃ p n, nodeAt exShared p = some n ∧ n.outcome ≠ oFail ∧ Fails n ∧
      seenTo exShared p <+: (treeMeanings exShared [] exWords).filter (sees (treeEvents exShared)) := by
    refine ⟨[0, 1, 0], _, rfl, by decide, by decide, ?_⟩
    rw [t1]
    decide
  have hlib : WholeLib exNoB exBothT.unicode ⟨Variant.animate, [], [⟨c!"a", c!"Msg"⟩], true, none⟩
      (fun ch => ∃ e ∈ treeEvents exShared, e.channel.name = ch) := by
    refine ⟨fun _ _ => rfl, ?_⟩
    have hall : ∀ e ∈ treeEvents exShared, Overridden ⟨Variant.animate, [], [⟨c!"a", c!"Msg"⟩], true, none⟩ e.channel.name →
        exNoB.takes [Rtcg.Cpp.convertTo exBothT.unicode e.channel.name] 1 = true ∧
        exNoB.takes [Rtcg.Cpp.convertFrom exBothT.unicode e.channel.name] 1 = true := by decide
    rintro _ ⟨e, he, rfl⟩
    exact hall e he
  obtain ⟨st', _, k2, k3, k4, _⟩ := hL exNoB hlib exWords hx [c!"more"] [] 5 7 (fun ho => by
    have hr := (Suite.status_built exShared_built exShared_deterministic (by decide) _).1.2 ho
    rw [t1] at hr
    exact absurd hr (by decide)) (by decide) (Nat.le_refl 7)
  have := k3.2 hfail
  rw [t2] at this
  exact ⟨st', this, k4⟩

/-- … and so are those about ROS: types `Msg` and `M` are configured for the channels. -/
def exX (ch : Str) : CType := if ch = c!"a" then ⟨false, [c!"Msg"], []⟩ else ⟨false, [c!"M"], []⟩

theorem exX_types : ChannelTypes asciiUnicode exAllCpp (TraceChannel exTraces)
    (fun ch => LeastUpper (fun ty => ∃ f ∈ exTraces, TraceCarries f ch ty)) exX := by
  have hty : ∀ ch ty, TraceChannel exTraces ch → configuredType exAllCpp ch = some ty →
      (ch = c!"a" ∧ ty = c!"Msg") ∨ (ch = c!"b" ∧ ty = c!"M") := by
    intro ch ty h1 h2
    rcases exV_channels ch h1 with rfl | rfl
    · exact .inl ⟨rfl, Option.some.inj (h2.symm.trans (by decide : _ = some c!"Msg"))⟩
    · exact .inr ⟨rfl, Option.some.inj (h2.symm.trans (by decide : _ = some c!"M"))⟩
  refine ⟨fun ch t h0 _ h2 => absurd (exAll_convert.2 ch h0) h2, ?_, ?_, ?_⟩
  · intro ch ty h1 h2 _
    rcases hty ch ty h1 h2 with ⟨rfl, rfl⟩ | ⟨rfl, rfl⟩
    · exact ⟨by decide +kernel, rfl⟩
    · exact ⟨by decide +kernel, rfl⟩
  · intro ch ty h1 h2 _ w hw
    rcases hty ch ty h1 h2 with ⟨rfl, rfl⟩ | ⟨rfl, rfl⟩
    · have : lex c!"Msg" = [.word c!"Msg"] := by decide +kernel
      rw [this] at hw
      cases List.mem_singleton.1 hw
      exact exV_undefined (by decide)
    · have : lex c!"M" = [.word c!"M"] := by decide +kernel
      rw [this] at hw
      cases List.mem_singleton.1 hw
      exact exV_undefined (by decide)
  · intro _ ch h1 _
    rcases exV_channels ch h1 with rfl | rfl
    · exact ⟨rfl, by decide⟩
    · exact ⟨rfl, by decide⟩

theorem exX_lib : RosLib exLib asciiUnicode exX (fun ch => ∃ e ∈ eventsOf exTraces[0], e.channel.name = ch) :=
  ⟨fun _ _ => rfl, fun _ _ => ⟨rfl, rfl⟩, fun _ _ => rfl, fun _ _ => rfl, fun _ _ => ⟨rfl, fun _ => ⟨1, rfl⟩⟩⟩

example : ∃ fs' P, Program.script exBothT ⟨[], exAllFs, []⟩ [c!"cfg.xml", c!"traces.csv"] = (fs', 0) ∧
    OnDiskLinked exBothT fs' [c!"out", c!"ros"] c!"x" P ∧
    ∃ st', runMain P exLib 0 6 [.int 0, .void] [] ([(.start, [.void]), (.accepted, [.void]), (.output ⟨c!"b", .out⟩ (.enum c!"ok"), [.str c!"ok"])].map eventOf) =
      .ok (.int 1) st' := by
  obtain ⟨fs', hrun⟩ := exAll_succeeds
  obtain ⟨cfg, named, h1, h2, h3⟩ := C117_traces_ros (T := exBothT) asciiUnicode_ok (by decide) exAll_reads exFile_read exTraces_events exTraces_types
    (by decide) (by unfold OneLine; decide) hrun
  rw [exAll_loads] at h1
  cases h1
  have hn : Forbidden.nameAll exTraces = some [(c!"x", exTraces[0]), (c!"test0", exTraces[1])] := by decide +kernel
  rw [hn] at h2
  cases h2
  obtain ⟨P, hP, hL⟩ := h3 (by decide) _ (List.mem_cons_self ..) rfl exAll_convert.1 (fun _ h => absurd h (by simp [exAllCpp])) exAll_convert.2
    exX exX_types c!"x" exTraces[0] (List.mem_cons_self ..) (exBoth_names _) (exV_undefined (by decide))
  refine ⟨fs', P, hrun, hP, ?_⟩
  obtain ⟨st', _, _, k3, _⟩ := hL exLib exX_lib [(.start, [.void]), (.accepted, [.void]), (.output ⟨c!"b", .out⟩ (.enum c!"ok"), [.str c!"ok"])] (by
    intro x hx
    simp only [List.mem_cons, List.not_mem_nil, or_false] at hx
    rcases hx with rfl | rfl | rfl
    · exact ⟨by unfold TraceCallback; decide, rfl⟩
    · exact ⟨by unfold TraceCallback; decide, rfl⟩
    · refine ⟨⟨by decide, by decide, by simp, ?_⟩, _, rfl, rfl⟩
      intro e he hc
      have : e = ⟨⟨c!"b", .out⟩, .enum c!"ok"⟩ := by revert e; decide
      subst this
      rfl) (.int 0) .void [] 0 6 (Nat.le_refl 6)
  exact ⟨st', k3.2 (by decide)⟩

/-! ### tests called by words that stand for types -/

/-- The machine of a trace of one output, with the test called GoMsg, which is what convert.h calls the type of the messages of the channel go -/
def exClash : Stm :=
  ⟨[⟨c!"initial", [⟨⟨c!"go", .out⟩, [⟨.int 1, c!"step0"⟩]⟩], [(c!"GoMsg", oPass)]⟩, ⟨c!"step0", [], [(c!"GoMsg", oFail)]⟩],
    [(c!"go", some ⟨⟨1⟩, ⟨1⟩⟩)], [(c!"GoMsg", true)]⟩

def exClashTypes : TypeMap := [(c!"go", some ⟨⟨1⟩, ⟨1⟩⟩)]

def exClashCpp : CppConfig.Config := ⟨.animate, [], [], true, none⟩

theorem exClash_made : ∃ ts, MadeFrom ts ⟨exClashTypes, [(c!"GoMsg", exClash)]⟩ ∧ ∀ nt ∈ ts, NoIds nt.2.root :=
  ⟨_, made_of_trace ⟨[], [], ⟨⟨c!"go", .out⟩, .int 1⟩⟩ c!"GoMsg" _ _ (by rfl)⟩

theorem exClash_good : GoodTest asciiUnicode c!"today" exClashCpp c!"GoMsg" exClash := by
  have hw : WellNamed asciiUnicode .animate exClash := by
    refine ⟨?_, ?_, ?_, ?_, ?_, ?_, ?_⟩
    · unfold WordName; decide
    · unfold Cpp.GoodValue Cpp.Plain; decide
    · unfold Ident; decide
    · decide
    · decide
    · decide
    · intro _; decide
  exact ⟨hw, by unfold OneLine; decide, by unfold Cpp.Plain; decide, fun i hi => absurd hi (by simp [exClashCpp])⟩

theorem exClash_channels {ch : Str} (h : ChannelOf ⟨exClashTypes, [(c!"GoMsg", exClash)]⟩ ch) : ch = c!"go" := by
  obtain ⟨t, h⟩ := h
  have := GoMap.mem_of_get? h
  simp only [exClashTypes, List.mem_cons, Prod.mk.injEq, List.not_mem_nil, or_false] at this
  exact this.1

theorem exClash_convert : ConvertNames asciiUnicode exClashCpp (ChannelOf ⟨exClashTypes, [(c!"GoMsg", exClash)]⟩) := by
  refine ⟨?_, ?_, by simp [exClashCpp], by simp [exClashCpp]⟩
  · intro ch h
    rw [exClash_channels h]
    unfold WordName
    decide
  · intro x y hx hy
    rw [exClash_channels hx, exClash_channels hy]
    decide

theorem exClash_types : ChannelTypes asciiUnicode exClashCpp (ChannelOf ⟨exClashTypes, [(c!"GoMsg", exClash)]⟩)
    (fun ch t => GoMap.get? exClashTypes ch = some (some t)) (fun _ => ⟨false, [c!"unsigned int"], []⟩) := by
  have hno : ∀ ch, configuredType exClashCpp ch = none := fun ch => rfl
  refine ⟨?_, fun ch ty _ h => ?_, fun ch ty _ h => ?_, fun h => absurd h (by decide)⟩
  · intro ch t _ h _
    have := GoMap.mem_of_get? h
    simp only [exClashTypes, List.mem_cons, Prod.mk.injEq, List.not_mem_nil, or_false, Option.some.injEq] at this
    obtain ⟨_, rfl⟩ := this
    decide
  · rw [hno] at h; cases h
  · rw [hno] at h; cases h

theorem exClash_breaks : (unit (found (CppText.convertText asciiUnicode .animate (exClashCpp.process exClashTypes)) TemplateFiles.rtcgH)
    (CppText.mainText asciiUnicode .animate c!"today" c!"GoMsg" exClash (TransitionContext.make exClash) (exClashCpp.process exClashTypes)
      (Harness.initial exClash))).isNone = true := by decide +kernel

/-- C117: that tests are not called by words that stand for types is needed: a suite whose names satisfy all else that C117 asks for, and whose
main.cpp can be read as C++ when its words are left alone, but not with what it includes. -/
theorem C117_replaced : ∃ ts r m c T, MadeFrom ts r ∧ (∀ nt ∈ ts, NoIds nt.2.root) ∧ (c!"GoMsg", m) ∈ r.tests ∧
    GoodTest asciiUnicode c!"today" c c!"GoMsg" m ∧ ConvertNames asciiUnicode c (ChannelOf r) ∧ GoodIncludes c ∧
    ChannelTypes asciiUnicode c (ChannelOf r) (fun ch t => GoMap.get? r.types ch = some (some t)) T ∧
    ∃ conv main, render asciiUnicode c!"today" (.convertH c.variant (c.process r.types)) = (conv, .ok ()) ∧
      render asciiUnicode c!"today" (.mainCpp c.variant c!"GoMsg" m (TransitionContext.make m) (c.process r.types)) = (main, .ok ()) ∧
      (∃ items, parse (lex main) = some items) ∧ unit (found conv TemplateFiles.rtcgH) main = none := by
  obtain ⟨ts, h1, h2⟩ := exClash_made
  have hg := generated asciiUnicode_ok (c := exClashCpp) (.inl rfl) h1 h2 (List.mem_singleton.2 rfl) exClash_good
  exact ⟨ts, _, exClash, exClashCpp, _, h1, h2, List.mem_singleton.2 rfl, exClash_good, exClash_convert, fun _ h => absurd h (by simp [exClashCpp]),
    exClash_types, _, _, convert_renders (.inl rfl) h1, hg.2.1,
    ⟨_, Ok.parse_main (Good.ok_env asciiUnicode_ok (.inl rfl)) hg.1⟩, Option.isNone_iff_eq_none.1 exClash_breaks⟩

/-- The hypotheses of C117_again are met; and the first time convert.h does define words. -/
example : ∃ ts r, MadeFrom ts r ∧ ConvertNames asciiUnicode exClashCpp (ChannelOf r) ∧ GoodIncludes exClashCpp ∧
    ∃ conv, render asciiUnicode c!"today" (.convertH exClashCpp.variant (exClashCpp.process r.types)) = (conv, .ok ()) ∧
      ∃ p' given, preFile (found conv TemplateFiles.rtcgH) 1 ⟨[], []⟩ conv = some (p', given) ∧
        preFile (found conv TemplateFiles.rtcgH) 1 p' conv = some (p', []) := by
  obtain ⟨ts, h1, h2⟩ := exClash_made
  have hi : GoodIncludes exClashCpp := fun _ h => absurd h (by simp [exClashCpp])
  obtain ⟨conv, h3, h4⟩ := C117_again (date := c!"today") asciiUnicode_ok (c := exClashCpp) (.inl rfl) h1 exClash_convert hi
  obtain ⟨p', given, h5, _, _, h6⟩ := h4 0 ⟨[], []⟩ rfl
  exact ⟨ts, _, h1, exClash_convert, hi, conv, h3, p', given, h5, h6 p' fun _ h => h⟩

end Rtcg
