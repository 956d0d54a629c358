import Verif.Props.Templates
import Verif.Proofs.CppOk
import Verif.Proofs.CppAnimateMain
import Verif.Proofs.JsonSuite

/-
Well-named tests: the names that a generated program is made of are names of C++ and do not clash.
-/

set_option linter.unusedSimpArgs false

namespace Rtcg

namespace Spec

namespace Cpp

namespace Good

open Templates Rtcg.Cpp Tmpl Strmanip

variable {U : Unicode}

/-! ### characters -/

theorem wordChar_lt {c : Char} (h : wordChar c = true) : c.toNat < 128 := by
  unfold wordChar at h
  simp only [Bool.or_eq_true, Bool.and_eq_true, decide_eq_true_eq] at h
  rcases h with ((⟨_, h⟩ | ⟨_, h⟩) | ⟨_, h⟩) | rfl
  · omega
  · omega
  · omega
  · decide

theorem ascii_chars {p : Char → Prop} (h : ∀ n < 128, p (Char.ofNat n)) {c : Char} (hc : c.toNat < 128) : p c := by
  have := h c.toNat hc
  rwa [Char.ofNat_toNat] at this

theorem upper_word (hU : U.AsciiOK) {c : Char} (h : wordChar c = true) : wordChar (U.toUpper c) = true ∧ digit (U.toUpper c) = digit c := by
  have hc := wordChar_lt h
  rw [hU.toUpper c hc]
  revert h
  exact ascii_chars (p := fun c => wordChar c = true →
    wordChar (if 97 ≤ c.toNat ∧ c.toNat ≤ 122 then Char.ofNat (c.toNat - 32) else c) = true ∧
    digit (if 97 ≤ c.toNat ∧ c.toNat ≤ 122 then Char.ofNat (c.toNat - 32) else c) = digit c) (by decide +kernel) hc

theorem lower_word (hU : U.AsciiOK) {c : Char} (h : wordChar c = true) : wordChar (U.toLower c) = true ∧ digit (U.toLower c) = digit c := by
  have hc := wordChar_lt h
  rw [hU.toLower c hc]
  revert h
  exact ascii_chars (p := fun c => wordChar c = true →
    wordChar (if 65 ≤ c.toNat ∧ c.toNat ≤ 90 then Char.ofNat (c.toNat + 32) else c) = true ∧
    digit (if 65 ≤ c.toNat ∧ c.toNat ≤ 90 then Char.ofNat (c.toNat + 32) else c) = digit c) (by decide +kernel) hc

theorem word_plain {c : Char} (h : wordChar c = true) : plainChar c = true := by
  have hc := wordChar_lt h
  revert h
  exact ascii_chars (p := fun c => wordChar c = true → plainChar c = true) (by decide +kernel) hc

theorem plain_of_word {w : Str} (h : w.all wordChar = true) : Plain w := by
  unfold Plain
  rw [List.all_eq_true] at *
  exact fun c hc => word_plain (h c hc)

/-! ### words -/

theorem not_suffix {suf : Str} (hs : ∀ k ∈ keywords, (suf.isSuffixOf k) = false) (w : Str) : keywords.contains (w ++ suf) = false := by
  cases h : keywords.contains (w ++ suf) with
  | false => rfl
  | true =>
    have := hs _ (List.contains_iff_mem.1 h)
    rw [show suf.isSuffixOf (w ++ suf) = true from List.isSuffixOf_iff_suffix.2 (List.suffix_append _ _)] at this
    cases this

theorem not_prefix {pre : Str} (w : Str) (hs : ∀ k ∈ keywords, pre.isPrefixOf k = true → k = pre) (hw : w ≠ []) :
    keywords.contains (pre ++ w) = false := by
  cases h : keywords.contains (pre ++ w) with
  | false => rfl
  | true =>
    have := hs _ (List.contains_iff_mem.1 h) (List.isPrefixOf_iff_prefix.2 (List.prefix_append _ _))
    have := congrArg List.length this
    cases w with
    | nil => exact absurd rfl hw
    | cons c w => simp at this

theorem wordName_append {w suf : Str} (h : WordName w) (hs : suf.all wordChar = true) : WordName (w ++ suf) := by
  obtain ⟨h1, h2⟩ := h
  refine ⟨?_, by rw [List.all_append, h2, hs]; rfl⟩
  cases w with
  | nil => simp at h1
  | cons c w => exact h1

theorem ident_suffix {w suf : Str} (h : WordName w) (hs : suf.all wordChar = true) (hk : ∀ k ∈ keywords, suf.isSuffixOf k = false) :
    Ident (w ++ suf) := by
  obtain ⟨h1, h2⟩ := wordName_append h hs
  unfold Ident isIdent
  rw [h1, h2, not_suffix hk]
  rfl

theorem ident_prefix {pre w : Str} (hp : WordName pre) (hw : w.all wordChar = true) (hn : w ≠ [])
    (hk : ∀ k ∈ keywords, pre.isPrefixOf k = true → k = pre) : Ident (pre ++ w) := by
  obtain ⟨h1, h2⟩ := wordName_append hp hw
  unfold Ident isIdent
  rw [h1, h2, not_prefix w hk hn]
  rfl

theorem upcase_word (hU : U.AsciiOK) {w : Str} (h : WordName w) : WordName (upcaseFirst U w) := by
  obtain ⟨h1, h2⟩ := h
  cases w with
  | nil => simp at h1
  | cons c w =>
    rw [(C44_upcaseFirst U).2]
    simp only [List.head?_cons, Option.any_some, Bool.and_eq_true, List.all_cons] at h1 h2
    have := upper_word hU h1.1
    refine ⟨?_, ?_⟩
    · simp only [List.head?_cons, Option.any_some, Bool.and_eq_true, this.1, this.2, h1.2, and_self]
    · simp only [List.all_cons, this.1, h2.2, Bool.and_self]

/-- Names in lower case and with underscores -/
theorem lowered_word (hU : U.AsciiOK) {w : Str} (h : WordName w) : WordName (toLowerUnderscored U w) := by
  have key : ∀ (w : Str) (f : Formatter), w.all wordChar = true → f.sb = [] ∨ WordName f.sb → (f.sb = [] → f.lastLower = false) →
      (f.sb = [] → ∀ c, w.head? = some c → digit c = false) → (f.sb = [] → w ≠ []) →
      WordName (w.foldl (Formatter.step U) f).sb := by
    intro w
    induction w with
    | nil =>
      intro f _ h1 _ _ h4
      rcases h1 with h1 | h1
      · exact absurd rfl (h4 h1)
      · exact h1
    | cons c w ih =>
      intro f hw h1 h2 h3 h4
      rw [List.all_cons, Bool.and_eq_true] at hw
      rw [List.foldl_cons]
      have hl := lower_word hU hw.1
      have hadd : ∀ s : Str, s = [] ∨ WordName s → ∀ x, wordChar x = true → (s = [] → digit x = false) → WordName (s ++ [x]) := by
        intro s hs x hx hd
        rcases hs with rfl | hs
        · refine ⟨?_, by simp [hx]⟩
          simp [hx, hd rfl]
        · exact wordName_append hs (by simp [hx])
      have hword : WordName (Formatter.step U f c).sb := by
        have h2' : ∀ x, wordChar x = true → WordName (f.sb ++ [x]) ∨ (f.sb = [] ∧ digit x = true) := by
          intro x hx
          by_cases hf : f.sb = []
          · cases hd : digit x with
            | true => exact .inr ⟨hf, rfl⟩
            | false => exact .inl (hadd _ h1 x hx fun _ => hd)
          · exact .inl (hadd _ h1 x hx fun hh => absurd hh hf)
        unfold Formatter.step
        by_cases hs : (U.isUpper c && f.lastLower) = true
        · rw [if_pos hs]
          show WordName ((f.sb ++ ['_']) ++ [U.toLower c])
          refine hadd _ (.inr (hadd _ h1 _ (by decide) fun _ => by decide)) _ hl.1 ?_
          intro hh; simp at hh
        · rw [if_neg hs]
          by_cases hu : c = '_'
          · rw [if_pos hu]
            exact hadd _ h1 _ (by decide) fun _ => by decide
          · rw [if_neg hu]
            refine hadd _ h1 _ hl.1 ?_
            intro hf
            rw [hl.2]
            exact h3 hf c rfl
      have hne : (Formatter.step U f c).sb ≠ [] := by
        intro hh
        rw [hh] at hword
        exact absurd hword.1 (by decide)
      exact ih _ hw.2 (.inr hword) (fun hh => absurd hh hne) (fun hh => absurd hh hne) (fun hh => absurd hh hne)
  obtain ⟨h1, h2⟩ := h
  refine key w _ h2 (.inl rfl) (fun _ => rfl) ?_ ?_
  · intro _ c hc
    rw [hc] at h1
    simp only [Option.any_some, Bool.and_eq_true, Bool.not_eq_true'] at h1
    exact h1.2
  · intro _ hw
    rw [hw] at h1
    simp at h1

theorem WordName.ne_nil {w : Str} (h : WordName w) : w ≠ [] := by
  rintro rfl
  exact absurd h.1 (by decide)

/-! ### channels -/

theorem kind_string (k : Kind) : Plain k.string := by
  have : ∀ n < 256, (Kind.string ⟨UInt8.ofNat n⟩).all plainChar = true := by decide +kernel
  have := this k.val.toNat k.val.toNat_lt
  rw [UInt8.ofNat_toNat] at this
  exact this

theorem plain_append {a b : Str} (ha : Plain a) (hb : Plain b) : Plain (a ++ b) := by
  unfold Plain at *
  rw [List.all_append, ha, hb]; rfl

theorem channel (hU : U.AsciiOK) {c : Channel} (h : WordName c.name) : GoodChannel U c := by
  have hu := upcase_word hU h
  have hl := lowered_word hU h
  have hp : Plain c.name := plain_of_word h.2
  refine ⟨?_, ?_, ?_, ?_, ?_, ?_, ?_, ?_, hp, ?_⟩
  · exact ident_suffix h (by decide) (by decide)
  · exact ident_suffix hu (by decide) (by decide)
  · exact ident_suffix hu (by decide) (by decide)
  · exact ident_prefix (by unfold WordName; decide) hu.2 (WordName.ne_nil hu) (by decide)
  · exact ident_prefix (by unfold WordName; decide) hu.2 (WordName.ne_nil hu) (by decide)
  · exact ident_suffix hl (by decide) (by decide)
  · exact ident_suffix hl (by decide) (by decide)
  · exact plain_of_word hl.2
  · unfold Channel.string
    split
    · unfold Plain; decide
    · exact plain_append hp (plain_append (a := c!".") (by unfold Plain; decide) (kind_string _))

/-! ### states -/

theorem decNat_word (n : Nat) : (decNat n).all wordChar = true := by
  rw [List.all_eq_true]
  intro d hd
  obtain ⟨h1, h2⟩ := decNat_digits n d hd
  have h1' : 48 ≤ d.toNat := h1
  have h2' : d.toNat ≤ 57 := h2
  unfold wordChar
  simp [h1', h2']

theorem id_initial (hU : U.AsciiOK) : GoodId U c!"initial" := by
  have h1 : enumField U c!"initial" = c!"INITIAL" := by
    unfold enumField Unicode.strToUpper
    simp [hU.toUpper]
  refine ⟨?_, ?_, by unfold Plain; decide⟩
  · rw [h1]; unfold Ident; decide
  · rw [stateEntry_initial hU]; unfold Ident; decide

theorem enumField_step (hU : U.AsciiOK) (n : Nat) : enumField U (c!"step" ++ decNat n) = c!"STEP" ++ decNat n := by
  unfold enumField Unicode.strToUpper
  rw [List.map_append, upper_digits hU]
  simp [hU.toUpper]

theorem id_step (hU : U.AsciiOK) (n : Nat) : GoodId U (c!"step" ++ decNat n) := by
  refine ⟨?_, ?_, plain_append (by unfold Plain; decide) (plain_of_word (decNat_word n))⟩
  · rw [enumField_step hU]
    exact ident_prefix (by unfold WordName; decide) (decNat_word n) (decNat_ne_nil n) (by decide)
  · rw [stateEntry_step hU]
    exact ident_prefix (by unfold WordName; decide) (decNat_word n) (decNat_ne_nil n) (by decide)

theorem id_made (hU : U.AsciiOK) {id : Str} (h : id = c!"initial" ∨ ∃ k, id = c!"step" ++ decNat k) : GoodId U id := by
  rcases h with rfl | ⟨k, rfl⟩
  · exact id_initial hU
  · exact id_step hU k

/-! ### outcomes and log levels -/

theorem env (hU : U.AsciiOK) {v : Variant} (hv : v = .animate ∨ v = .ros) : Lex.Env U v := by
  refine ⟨?_, ?_, hv⟩ <;> (unfold Unicode.strToUpper; simp [hU.toUpper])

theorem outcomes (hU : U.AsciiOK) (o : Outcome) (h : o.val.toNat < 4) : enumField U o.string = outcomeWord o := by
  have : ∀ n < 4, enumField U (Outcome.string ⟨UInt8.ofNat n⟩) = outcomeWord ⟨UInt8.ofNat n⟩ := by
    intro n hn
    have e : ∀ w : Str, w.all (fun c => c.toNat < 128) = true → U.strToUpper w = asciiUnicode.strToUpper w := by
      intro w hw
      unfold Unicode.strToUpper
      refine List.map_congr_left fun c hc => ?_
      have := (List.all_eq_true.1 hw) c hc
      rw [hU.toUpper c (by simpa using this)]
      rfl
    unfold enumField
    rw [e]
    · revert n; decide +kernel
    · revert n; decide +kernel
  have := this o.val.toNat h
  rw [UInt8.ofNat_toNat] at this
  exact this

theorem ok_env (hU : U.AsciiOK) {v : Variant} (hv : v = .animate ∨ v = .ros) : Ok.Env U v :=
  ⟨env hU hv, fun o h => by
    rw [outcomes hU o h]
    unfold outcomeWord Ident
    split
    · decide
    · split
      · decide
      · split <;> decide⟩

/-! ### the machine -/

/-- The outcomes in the verdicts of a machine made from a test -/
theorem verdict_codes {b b' : Builder} {root : Node} {t t' : Validate.Test} {m : Stm}
    (hv : Validate.full (some root) = some (.ok t)) (h : b.build t = some (.ok (b', m, t'))) :
    ∀ s ∈ m.states, ∀ e ∈ s.verdict, e.2 ∈ [oUnset, oInc, oFail, oPass] := by
  obtain ⟨hwf, _, hm, hinv, _⟩ := build_ok hv h
  have hwf' := (sameButIds_labelled root).wellFormed hwf
  intro s hs
  rw [hm] at hs
  generalize labelled root = L at hwf' hs
  obtain ⟨x, hx, rfl⟩ := List.mem_map.1 hs
  have hkid : ∀ k ∈ x.2.next, ∃ q, nodeAt L q = some k := by
    intro k hk
    have hm : k ∈ (x.2.children x.1).map (·.2) := by rw [children_snd]; exact hk
    obtain ⟨y, hy, rfl⟩ := List.mem_map.1 hm
    exact ⟨y.1, nodeAt_of_kid (List.mem_flatMap.2 ⟨x, hx, hy⟩)⟩
  rintro ⟨test, o⟩ ho
  have hget := GoMap.get?_of_mem (pureState_verdict_wf x.2) ho
  rw [pureState_verdict] at hget
  unfold lastOutcome at hget
  cases hl : (x.2.next.filter (fun c => test ∈ c.tests)).getLast? with
  | none => rw [hl] at hget; cases hget
  | some c =>
    rw [hl] at hget
    simp only [Option.map_some, Option.some.injEq] at hget
    have hc := List.mem_of_getLast? hl
    obtain ⟨q, hq⟩ := hkid c (List.mem_filter.1 hc).1
    show o ∈ _
    rw [← hget]
    exact outcome_wellFormed hwf' hq

theorem made_codes {ts : GoMap Str Validate.Test} {r : StmSuite} (h : MadeFrom ts r) {name : Str} {m : Stm} (hm : (name, m) ∈ r.tests) :
    ∀ s ∈ m.states, GoMap.WF s.verdict ∧ ∀ e ∈ s.verdict, e.2.val.toNat < 4 := by
  obtain ⟨hwf, hv, ⟨b, b', r₀, hb, hty, hsame⟩, w1, w2, w3⟩ := h
  have hg := hsame name
  rw [GoMap.get?_of_mem w2 hm] at hg
  cases hr : GoMap.get? r₀.tests name with
  | none => rw [hr] at hg; cases hg
  | some m₀ =>
  rw [hr] at hg
  cases hg with
  | some hss =>
  obtain ⟨hst, _, htests⟩ := hss
  obtain ⟨t, b₁, t', ht, hbt⟩ := suite_machine hwf hv hb (GoMap.mem_of_get? hr)
  intro s hs
  have hw := (w3 _ _ hm).1 s hs
  refine ⟨hw, ?_⟩
  rintro ⟨k, o⟩ he
  obtain ⟨s₀, hs₀, hss⟩ := sameState_mem hst s hs
  have hg := GoMap.get?_of_mem hw he
  rw [← hss.2.2 k] at hg
  have := verdict_codes (hv _ ht) hbt s₀ hs₀ _ (GoMap.mem_of_get? hg)
  simp only [List.mem_cons, List.not_mem_nil, or_false] at this
  show o.val.toNat < 4
  rcases this with h | h | h | h <;> (rw [show o = _ from h]; decide)

/-- What a machine has to be for the generated program to be as `Harness` says -/
structure Sound (U : Unicode) (m : Stm) : Prop where
  head : ∃ s, m.states.head? = some s
  sets : ∀ s ∈ m.states, ∀ x ∈ s.transitionSets, x.transitions ≠ []
  closed : ∀ s ∈ m.states, ∀ x ∈ s.transitionSets, ∀ tr ∈ x.transitions, ∃ s' ∈ m.states, s'.id = tr.next
  verdicts : ∀ s ∈ m.states, GoMap.WF s.verdict ∧ ∀ e ∈ s.verdict, e.1 ∈ GoSet.values m.tests ∧ e.2.val.toNat < 4
  ids : ∀ s ∈ m.states, GoodId U s.id
  distinct : (m.states.map (fun s => enumField U s.id)).Nodup
  upper : ∀ s ∈ m.states, stateEntry U s.id ≠ c!"StateMachine"

theorem made_sound (hU : U.AsciiOK) {ts : GoMap Str Validate.Test} {r : StmSuite} (h : MadeFrom ts r) (hno : ∀ nt ∈ ts, NoIds nt.2.root)
    {name : Str} {m : Stm} (hm : (name, m) ∈ r.tests) : Sound U m := by
  obtain ⟨t, ht, ok⟩ := madeFrom_machine h hm
  obtain ⟨hids, hform⟩ := ok.ids (hno _ ht)
  have hc := made_codes h hm
  obtain ⟨s, hs, _⟩ := ok.head
  refine ⟨⟨s, hs⟩, ok.sets, ok.closed, ?_, fun s hs => id_made hU (hform s hs), ?_, ?_⟩
  · intro s hs
    exact ⟨(hc s hs).1, fun e he => ⟨ok.verdicts s hs e.1 (List.mem_map.2 ⟨e, he, rfl⟩), (hc s hs).2 e he⟩⟩
  · have := (Templates.nodup_entries hU hids hform).2
    have e : m.states.map (fun s => Rtcg.Cpp.stateEnum U s.id) = (m.states.map (fun s => enumField U s.id)).map (fun x => c!"State" ++ c!"::" ++ x) := by
      rw [List.map_map]; rfl
    rw [e] at this
    exact List.Nodup.of_map _ this
  · intro s hs
    unfold stateEntry
    simp

theorem sm_notMem (U : Unicode) (v : Variant) {m : Stm} : c!"StateMachine" ∉ inherited ++ classMembers U v m := by
  have hcb : ∀ n : Str, c!"StateMachine" ≠ callbackName n := by
    intro n h
    have := Templates.lastTwo_callback n
    rw [← h] at this
    exact absurd this (by decide)
  have hf : ∀ n : Str, c!"StateMachine" ≠ n ++ c!"_pub" ++ c!"_" := by
    intro n h
    have := Templates.lastTwo_field n
    rw [← h] at this
    exact absurd this (by decide)
  have he : ∀ n : Str, c!"StateMachine" ≠ stateEntry U n := by
    intro n h
    unfold stateEntry at h
    simp at h
  have hfields : c!"StateMachine" ∉ Templates.stmFields U v (TransitionContext.make m) := by
    unfold Templates.stmFields
    split
    · intro h
      obtain ⟨a, _, h⟩ := List.mem_map.1 h
      exact hf _ h.symm
    · simp
  have h1 : c!"StateMachine" ∉ ([c!"getVerdict", c!"timeoutCallback"] : List Str) := by decide
  have h2 : c!"StateMachine" ∉ ([c!"verdict_", c!"state_"] : List Str) := by decide
  have h3 : c!"StateMachine" ∉ ([c!"stateName", c!"end"] : List Str) := by decide
  have h4 : c!"StateMachine" ∉ inherited := by decide
  have h5 : c!"StateMachine" ∉ (if (TransitionContext.make m).firstStateHasIn then [c!"initialDelayCallback"] else [] : List Str) := by
    split
    · decide
    · simp
  have h6 : c!"StateMachine" ∉ (if (TransitionContext.make m).hasIn then [c!"inputAcceptedCallback"] else [] : List Str) := by
    split
    · decide
    · simp
  have h7 : c!"StateMachine" ∉ (TransitionContext.make m).out.map (fun a => callbackName a.channel.name) := by
    intro h
    obtain ⟨a, _, h⟩ := List.mem_map.1 h
    exact hcb _ h.symm
  have h8 : c!"StateMachine" ∉ m.states.map (fun s => stateEntry U s.id) := by
    intro h
    obtain ⟨a, _, h⟩ := List.mem_map.1 h
    exact he _ h.symm
  unfold classMembers
  simp only [List.mem_append, not_or]
  exact ⟨h4, ⟨⟨⟨⟨⟨⟨⟨h1, h5⟩, h6⟩, h7⟩, h2⟩, hfields⟩, h8⟩, h3⟩⟩

theorem names {v : Variant} {m : Stm} (hs : Sound U m) (hw : WellNamed U v m) : GoodNames U v m := by
  refine ⟨?_, hw.verdict, hs.distinct, hw.convert, ?_, ?_⟩
  · rw [List.nodup_cons]
    exact ⟨sm_notMem U v, (List.perm_append_comm.nodup_iff).1 hw.members⟩
  · intro s h ts hts t ht
    obtain ⟨s', h1, h2⟩ := hs.closed s h ts hts t ht
    exact List.mem_map.2 ⟨s', h1, h2⟩
  · intro s h
    exact ⟨(hs.verdicts s h).1, fun e he => ((hs.verdicts s h).2 e he).1⟩

theorem setup (hU : U.AsciiOK) {v : Variant} (hv : v = .animate ∨ v = .ros) {name : Str} {m : Stm} {ctx : CppConfig.Context} {L : Lib}
    (hs : Sound U m) (hw : WellNamed U v m) (hl : Provides L U v m) : Sem.Setup ⟨U, v, name, m, ctx⟩ L := by
  refine ⟨env hU hv, outcomes hU, names hs hw, hl, ?_, ?_, hs.sets, ?_⟩
  · intro s h e he; exact ((hs.verdicts s h).2 e he).2
  · intro s h ts hts t ht; exact (hw.values s h ts hts t ht).1
  · obtain ⟨s, h⟩ := hs.head
    intro hh
    rw [show m.states = [] from hh] at h
    cases h

theorem transition {v : Variant} {m : Stm} (hs : Sound U m) (hw : WellNamed U v m) {t : Transition}
    (h : ∃ s ∈ m.states, ∃ ts ∈ s.transitionSets, t ∈ ts.transitions) : GoodTransition U t := by
  obtain ⟨s, h1, ts, h2, h3⟩ := h
  obtain ⟨s', h4, h5⟩ := hs.closed s h1 ts h2 t h3
  exact ⟨hw.values s h1 ts h2 t h3, h5 ▸ hs.ids s' h4⟩

theorem agg_channel {m : Stm} {a : AggregateSet} (ha : a ∈ m.aggregates) : ∃ s ∈ m.states, ∃ ts ∈ s.transitionSets, ts.channel = a.channel := by
  have : a.channel ∈ m.aggregates.map (·.channel) := List.mem_map.2 ⟨a, ha, rfl⟩
  rw [(C38_aggregates m).1, mem_firstUses] at this
  simpa only [List.mem_flatMap, List.mem_map] using this

theorem agg_some {m : Stm} (hs : ∀ s ∈ m.states, ∀ x ∈ s.transitionSets, x.transitions ≠ []) {a : AggregateSet} (ha : a ∈ m.aggregates)
    {e : Str × List Transition} (he : e ∈ a.states) : e.2 ≠ [] := by
  obtain ⟨hw, h2⟩ := (C38_aggregates m).2 a ha
  have hg := GoMap.get?_of_mem hw (show (e.1, e.2) ∈ a.states from he)
  obtain ⟨h3, h4⟩ := h2 e.1
  rw [h4 _ hg]
  have : ¬ ¬ ∃ s ∈ m.states, s.id = e.1 ∧ ∃ ts ∈ s.transitionSets, ts.channel = a.channel := by
    intro hh
    rw [h3.2 hh] at hg
    cases hg
  obtain ⟨s, h5, h6, ts, h7, h8⟩ := Classical.not_not.1 this
  cases ht : ts.transitions with
  | nil => exact absurd ht (hs s h5 ts h7)
  | cons t l =>
    refine List.ne_nil_of_mem (a := t) ?_
    unfold transitionsOn
    simp only [List.mem_flatMap, List.mem_filter, decide_eq_true_eq]
    exact ⟨s, ⟨h5, h6⟩, ts, ⟨h7, h8⟩, by rw [ht]; simp⟩

theorem aggregate (hU : U.AsciiOK) {v : Variant} {m : Stm} (hs : Sound U m) (hw : WellNamed U v m) {a : AggregateSet} (ha : a ∈ m.aggregates) :
    GoodAggregate U a := by
  obtain ⟨s, h1, ts, h2, h3⟩ := agg_channel ha
  refine ⟨h3 ▸ channel hU (hw.channels s h1 ts h2), ?_⟩
  intro e he
  obtain ⟨⟨s', h4, h5⟩, h6⟩ := agg_entry ha (show (e.1, e.2) ∈ a.states from he)
  exact ⟨h5 ▸ hs.ids s' h4, agg_some hs.sets ha he, fun t ht => transition hs hw (h6 t ht)⟩

theorem merged_some {m : Stm} (hs : ∀ s ∈ m.states, ∀ x ∈ s.transitionSets, x.transitions ≠ [])
    {e : Str × List Transition} (he : e ∈ (TransitionContext.make m).inMerged) : e.2 ≠ [] := by
  have hg := GoMap.get?_of_mem (inMerged_wf m) (show (e.1, e.2) ∈ _ from he)
  obtain ⟨h3, h4⟩ := inMerged_get? m e.1
  rw [h4 _ hg]
  have : ¬ ¬ ∃ s ∈ m.states, s.id = e.1 ∧ ∃ ts ∈ s.transitionSets, ts.channel.kind = kIn := by
    intro hh
    rw [h3.2 hh] at hg
    cases hg
  obtain ⟨s, h5, h6, ts, h7, h8⟩ := Classical.not_not.1 this
  cases ht : ts.transitions with
  | nil => exact absurd ht (hs s h5 ts h7)
  | cons t l =>
    refine List.ne_nil_of_mem (a := t) ?_
    refine List.mem_flatMap.2 ⟨ts.channel, List.mem_filter.2 ⟨?_, by simpa using h8⟩, ?_⟩
    · rw [make_eq]
      show ts.channel ∈ m.aggregates.map (·.channel)
      rw [(C38_aggregates m).1, mem_firstUses]
      exact List.mem_flatMap.2 ⟨s, h5, List.mem_map.2 ⟨ts, h7, rfl⟩⟩
    · unfold transitionsOn
      simp only [List.mem_flatMap, List.mem_filter, decide_eq_true_eq]
      exact ⟨s, ⟨h5, h6⟩, ts, ⟨h7, rfl⟩, by rw [ht]; simp⟩

theorem typeString_plain (t : RsType) : Plain (typeString t) := by
  unfold typeString RsType.tryString Plain
  repeat' split
  all_goals decide

theorem main (hU : U.AsciiOK) {v : Variant} {date name : Str} {m : Stm} {ctx : CppConfig.Context}
    (hs : Sound U m) (hw : WellNamed U v m) (hd : OneLine date) (hn : Plain name) (hi : ∀ i ∈ ctx.includes, OneLine i.src)
    (ht : ∀ s ∈ m.states, ∀ x ∈ s.transitionSets, ∃ ty, typeOf ctx x.channel.name = some ty) :
    GoodMain U date name m (TransitionContext.make m) ctx (Harness.initial m) := by
  refine ⟨hd, hn, hi, hw.tests, ?_, ?_, ?_, ?_, ?_, ?_⟩
  · intro s h
    refine ⟨hs.ids s h, ?_, ?_⟩
    · intro e he
      have := (hs.verdicts s h).2 e he
      exact ⟨hw.tests _ this.1, this.2⟩
    · intro ts hts
      exact ⟨channel hU (hw.channels s h ts hts), fun t htt => transition hs hw ⟨s, h, ts, hts, htt⟩⟩
  · obtain ⟨s, h⟩ := hs.head
    cases hm : m.states with
    | nil => rw [hm] at h; cases h
    | cons s' l =>
      have : Harness.initial m = s'.id := by
        unfold Harness.initial Stm.initialState
        rw [hm]
      rw [this]
      exact hs.ids s' (by rw [hm]; simp)
  · intro a ha
    rw [make_eq] at ha
    exact aggregate hU hs hw (List.mem_filter.1 ha).1
  · intro a ha
    rw [make_eq] at ha
    exact aggregate hU hs hw (List.mem_filter.1 ha).1
  · intro a ha
    rw [make_eq] at ha
    obtain ⟨s, h1, ts, h2, h3⟩ := agg_channel (List.mem_filter.1 ha).1
    obtain ⟨ty, hty⟩ := ht s h1 ts h2
    rw [h3] at hty
    unfold typeOf at hty
    rw [Option.bind_eq_some_iff] at hty
    obtain ⟨t, h4, h5⟩ := hty
    exact ⟨t, ty, h4, h5, typeString_plain ty⟩
  · intro e he
    obtain ⟨⟨s', h4, h5⟩, h6⟩ := merged_entry (show (e.1, e.2) ∈ _ from he)
    exact ⟨h5 ▸ hs.ids s' h4, merged_some hs.sets he, fun t ht => transition hs hw (h6 t ht)⟩

/-! ### types -/

theorem made_types {ts : GoMap Str Validate.Test} {r : StmSuite} (h : MadeFrom ts r) {name : Str} {m : Stm} (hm : (name, m) ∈ r.tests)
    (c : CppConfig.Config) : ∀ s ∈ m.states, ∀ x ∈ s.transitionSets, ∃ ty, GoMap.get? r.types x.channel.name = some (some ty) ∧
      typeOf (c.process r.types) x.channel.name = some ty := by
  obtain ⟨t, ht, ok⟩ := madeFrom_machine h hm
  intro s hs x hx
  cases htr : x.transitions with
  | nil => exact absurd htr (ok.sets s hs x hx)
  | cons tr l =>
    obtain ⟨ty, h1, _, _⟩ := ok.typed s hs x hx tr (by rw [htr]; simp)
    refine ⟨ty, h1, ?_⟩
    unfold typeOf
    rw [(C48_process c r.types h.2.2.2.1).2.2.1, h1]
    rfl

/-- A value of the type that the suite gives to a channel is of the kind of all values of the channel -/
theorem made_kind {ts : GoMap Str Validate.Test} {r : StmSuite} (h : MadeFrom ts r) {name : Str} {m : Stm} (hm : (name, m) ∈ r.tests)
    {c : Channel} {x : Value} {ty : RsType} (hu : ∃ s ∈ m.states, ∃ ts ∈ s.transitionSets, ts.channel = c) (hc : c.kind ≠ kIn)
    (hty : GoMap.get? r.types c.name = some (some ty)) (hx : FitsType ty x) : HasCallback m (.output c x) := by
  obtain ⟨t, ht, ok⟩ := madeFrom_machine h hm
  refine ⟨hu, hc, ?_, ?_⟩
  · rintro rfl; exact hx
  · intro s hs tx htx hch tr htr
    obtain ⟨ty', h1, h2, h3⟩ := ok.typed s hs tx htx tr htr
    rw [hch, hty] at h1
    simp only [Option.some.injEq] at h1
    subst h1
    have hk : ty.isEnum = tr.value.type.isEnum := by
      rcases h3.1 _ h2 with e | ⟨e1, e2, _⟩
      · rw [e]
      · unfold RsType.isEnum
        rw [e1, e2]
    show tr.value.type.isEnum = x.type.isEnum
    rw [← hk]
    cases x with
    | none => exact absurd hx id
    | enum w => exact hx
    | int i =>
      have h0 : (Value.type (.int i)).isEnum = false := by
        show RsType.isEnum (if 0 ≤ i.toInt then RsType.arithmos .nat else RsType.arithmos .int) = false
        split <;> rfl
      rw [h0]
      have hne : ∀ d, ty.isArithmos d = true → ty.isEnum = false := by
        intro d hd
        unfold RsType.isArithmos at hd
        by_cases hk' : ty.kind ≠ .arithmos
        · rw [if_pos hk'] at hd; cases hd
        · unfold RsType.isEnum
          rw [Classical.not_not.1 hk']
          decide
      rcases hx with hx | ⟨hx, _⟩
      · exact hne _ hx
      · exact hne _ hx

end Good

end Cpp

end Spec

end Rtcg
