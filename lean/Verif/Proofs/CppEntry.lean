import Verif.Proofs.CppVerdict
import Verif.Props.StmAgg

/-
Running the generated program: entry functions.
-/

namespace Rtcg

namespace Spec

namespace Cpp

namespace Sem

open Templates Rtcg.Cpp Tmpl Tree

/-! ### values -/

theorem foldl_digits (w : Str) (a : Nat) :
    w.foldl (fun n c => 10 * n + (c.toNat - 48)) a = a * 10 ^ w.length + digitsValue w := by
  induction w generalizing a with
  | nil => simp [digitsValue]
  | cons c w ih =>
    rw [List.foldl_cons, ih, digitsValue, List.length_cons, Nat.pow_succ]
    generalize c.toNat - 48 = d
    generalize 10 ^ w.length = k
    generalize digitsValue w = v
    rw [Nat.add_mul, Nat.mul_comm 10 a, Nat.mul_assoc, Nat.mul_comm 10 k, Nat.add_assoc]

theorem digits_decNat (n : Nat) : digits (decNat n) = some n := by
  have h1 : (decNat n).all digit = true := by
    rw [List.all_eq_true]
    intro d hd
    have := decNat_digits n d hd
    unfold digit
    have h1 := UInt32.le_iff_toNat_le.1 (Char.le_def.1 this.1)
    have h2 := UInt32.le_iff_toNat_le.1 (Char.le_def.1 this.2)
    simp only [Bool.and_eq_true, decide_eq_true_eq]
    exact ⟨h1, h2⟩
  unfold digits
  rw [if_pos ⟨decNat_ne_nil n, h1⟩]
  congr 1
  rw [foldl_digits, digitsValue_decNat]
  simp

section

variable {S : Src} {L : Lib} {fuel n : Nat} {st : St}

theorem eval_value {C : Ctx} {x : Value} (h : x ≠ .none) : evalE C (valueE x) st = .ok (valueVal x) st := by
  cases x with
  | none => exact absurd rfl h
  | enum s => exact eval_str
  | int i =>
    have hd : ∀ k, evalE C (.num (decNat k)) st = .ok (.int k) st := by
      intro k
      rw [evalE, digits_decNat]
      rfl
    show evalE C (intE i) st = .ok (.int i.toInt) st
    unfold intE
    split
    · rename_i hi
      rw [evalE, if_neg (by decide), if_pos rfl, bind_ok (hd _)]
      show Cpp.Res.ok (Val.int (-((i.toInt.natAbs : Int)))) st = _
      have : -((i.toInt.natAbs : Int)) = i.toInt := by omega
      rw [this]
    · rename_i hi
      rw [hd]
      have : ((i.toInt.natAbs : Int)) = i.toInt := by omega
      rw [this]

/-- A conversion -/
theorem call_conv (hS : Setup S L) {q : List Str} (hq : (∃ f, q = [SM, f]) ∨ ∃ f, q = [f]) {this : Option (List Str)} {w : Str}
    {e : Expr} {v : Val} {st1 : St} (hw : w.head? = some 't' ∨ w.head? = some 'f') (hk : L.takes [w] 1 = true)
    (hc : w ∉ classMembers S.U S.v S.m) (ha : evalE (cx S L fuel n q this) e st = .ok v st1) :
    evalE (cx S L fuel n q this) (Tree.call [w] [e]) st = .ok (L.val [w] [v]) { st1 with eff := st1.eff ++ [.call [w] [v]] } := by
  have hne : ∀ u : Str, u.head? ≠ some 't' → u.head? ≠ some 'f' → w ≠ u := by
    intro u h1 h2 e
    subst e
    rcases hw with h | h
    · exact h1 h
    · exact h2 h
  have h0 : S.prog.fn [w] = none := by
    refine S.fn_other ?_ ?_ ?_ ?_ ?_ ?_ <;> simp only [List.head?_cons, ne_eq, Option.some.injEq, List.cons.injEq, and_true] <;>
      exact hne _ (by decide) (by decide)
  have h1 : S.prog.fn [SM, w] = none := by
    apply fn_not
    simp only [List.mem_cons, List.mem_append, inherited, List.not_mem_nil, or_false, not_or]
    exact ⟨hne _ (by decide) (by decide), ⟨hne _ (by decide) (by decide), hne _ (by decide) (by decide)⟩, hc⟩
  refine eval_lib ?_ (evalList_cons ha evalList_nil) ?_ (by simp) hk
  · unfold isLogMacro
    cases w with
    | nil => simp at hw
    | cons c w =>
      simp only [List.head?_cons, Option.some.injEq] at hw
      rcases hw with rfl | rfl <;> rfl
  · rcases hq with ⟨f, rfl⟩ | ⟨f, rfl⟩
    · show ([[SM, w], [w]] : List (List Str)).find? _ = _
      rw [List.find?_cons, h1, List.find?_cons, h0]
      rfl
    · show ([[w]] : List (List Str)).find? _ = _
      rw [List.find?_cons, h0]
      rfl

/-! ### configurations -/

/-- `Holds` without the publishers -/
structure Core (S : Src) (p : List Str) (c : Harness.Config) (st : St) : Prop where
  status : st.mem (p ++ [c!"status_"]) = some (statusVal c.status)
  state : st.mem (p ++ [c!"state_"]) = some (stateVal S.U c.state)
  known : c.state ∈ S.m.states.map (·.id)
  object : st.mem (p ++ [c!"verdict_"]) = some (.obj (p ++ [c!"verdict_"]) [c!"Verdict"])
  tests : Tests S (p ++ [c!"verdict_"]) c.verdict st

/-- The publishers -/
def Pubs (S : Src) (L : Lib) (p : List Str) (st : St) : Prop :=
  S.v = .ros → ∀ a ∈ S.tc.in_, st.mem (p ++ [publisherName S.U a.channel ++ c!"_"]) = some (publisher L S.U a.channel)

theorem holds_iff {p : List Str} {c : Harness.Config} : Holds L S.U S.v S.m p c st ↔ Core S p c st ∧ Pubs S L p st := by
  have e : ∀ t : Str, p ++ [c!"verdict_"] ++ [t ++ c!"_"] = p ++ [c!"verdict_", t ++ c!"_"] := by simp
  constructor
  · intro h
    refine ⟨⟨h.status, h.state, h.known, h.object, ?_⟩, h.publishers⟩
    intro t ht
    rw [e]
    exact h.tests t ht
  · rintro ⟨h, h'⟩
    refine ⟨h.status, h.state, h.known, h.object, ?_, h'⟩
    intro t ht
    rw [← e]
    exact h.tests t ht

/-- Fields other than the status and the state have not changed -/
def Stay (p : List Str) (st st' : St) : Prop := ∀ x, x ≠ c!"status_" → x ≠ c!"state_" → st'.mem (p ++ [x]) = st.mem (p ++ [x])

theorem Stay.trans {p : List Str} {st st1 st2 : St} (h : Stay p st st1) (h' : Stay p st1 st2) : Stay p st st2 :=
  fun x h1 h2 => (h' x h1 h2).trans (h x h1 h2)

theorem Stay.refl {p : List Str} : Stay p st st := fun _ _ _ => rfl

theorem Stay.of_mem {p : List Str} {st' : St} (h : st'.mem = st.mem) : Stay p st st' := fun _ _ _ => by rw [h]

theorem Stay.upd {p : List Str} {st' : St} {x : Str} {v : Val} (h : st'.mem = upd st.mem (p ++ [x]) v) (hx : x = c!"status_" ∨ x = c!"state_") :
    Stay p st st' := by
  intro y h1 h2
  rw [h, upd_other]
  intro e
  simp only [List.append_cancel_left_eq, List.cons.injEq, and_true] at e
  subst e
  rcases hx with h | h
  · exact h1 h
  · exact h2 h

theorem pub_field (hS : Setup S L) {a : AggregateSet} (ha : a ∈ S.tc.in_) (hv : S.v = .ros) :
    publisherName S.U a.channel ++ c!"_" ≠ c!"status_" ∧ publisherName S.U a.channel ++ c!"_" ≠ c!"state_" ∧
      publisherName S.U a.channel ++ c!"_" ≠ c!"verdict_" := by
  have h := hS.names.members
  have hm : publisherName S.U a.channel ++ c!"_" ∈ stmFields S.U S.v (TransitionContext.make S.m) := by
    unfold stmFields
    rw [if_pos hv]
    exact List.mem_map.2 ⟨a, ha, rfl⟩
  unfold classMembers inherited at h
  rw [List.nodup_iff_count_le_one] at h
  have hc : 0 < List.count (publisherName S.U a.channel ++ c!"_") (stmFields S.U S.v (TransitionContext.make S.m)) := List.count_pos_iff.2 hm
  have hx := h (publisherName S.U a.channel ++ c!"_")
  generalize publisherName S.U a.channel ++ c!"_" = x at *
  simp only [List.count_append, List.count_cons, List.count_nil] at hx
  refine ⟨?_, ?_, ?_⟩ <;> rintro rfl <;> simp at hx <;> omega

theorem Pubs.stay (hS : Setup S L) {p : List Str} {st' : St} (h : Pubs S L p st) (hs : Stay p st st') : Pubs S L p st' := by
  intro hv a ha
  obtain ⟨h1, h2, _⟩ := pub_field hS ha hv
  rw [hs _ h1 h2]
  exact h hv a ha

/-! ### ending -/

theorem finish_eq (s : Status) (c : Harness.Config) : Harness.finish s c = { c with status := endStatus c.status s } := by
  unfold Harness.finish endStatus
  split
  · rfl
  · split <;> rfl

theorem endStatus_running (c s : Status) : (endStatus c s).isRunning = false := by
  unfold endStatus
  split
  · rename_i h; simpa using h
  · split
    · rfl
    · rename_i h; simpa using h

theorem Core.status_upd {p : List Str} {c : Harness.Config} {st' : St} {s : Status} (h : Core S p c st)
    (hm : st'.mem = upd st.mem (p ++ [c!"status_"]) (statusVal s)) : Core S p { c with status := s } st' := by
  refine ⟨by rw [hm, upd_same], ?_, h.known, ?_, ?_⟩
  · rw [hm, upd_other (by simp)]; exact h.state
  · rw [hm, upd_other (by simp)]; exact h.object
  · intro t ht
    obtain ⟨o, h1, h2⟩ := h.tests t ht
    exact ⟨o, h1, by rw [hm, upd_other (by simp), h2]⟩

theorem Core.congr {p : List Str} {c : Harness.Config} {st' : St} (h : Core S p c st) (hm : st'.mem = st.mem) : Core S p c st' := by
  refine ⟨by rw [hm]; exact h.status, by rw [hm]; exact h.state, h.known, by rw [hm]; exact h.object, ?_⟩
  intro t ht
  rw [hm]
  exact h.tests t ht

/-- `end(rtcg::Status::X);` -/
theorem exec_end (hS : Setup S L) {f : Str} {p : List Str} {c : Harness.Config} (hc : Core S p c st) (s : Status) :
    ∃ st', execS (cx S L fuel (n + 2) [SM, f] (some p)) (endS (statusWord s)) st = .ok .next st' ∧ Core S p (Harness.finish s c) st' ∧
      Steps S.v st st' [] (decide (S.v = .ros) && c.status.isRunning && !(Harness.finish s c).status.isRunning) ∧ Stay p st st' := by
  obtain ⟨st', h1, h2, h3⟩ := run_end (n := n) (fuel := fuel) hS hc.status s
  refine ⟨st', execS_expr (call_own hS mem_end (by decide) (evalList_cons (eval_status (shallow_sm f) s) evalList_nil) h1), ?_, ?_,
    Stay.upd h3 (.inl rfl)⟩
  · rw [finish_eq]; exact hc.status_upd h3
  · rw [finish_eq]
    show Steps S.v st st' [] (_ && !(endStatus c.status s).isRunning)
    rw [endStatus_running, Bool.not_false, Bool.and_true]
    exact h2

/-! ### logs -/

/-- Statements that only log -/
theorem exec_quiet {C : Ctx} (l : List Stmt)
    (h : ∀ s ∈ l, ∀ st, ∃ st', execS C s st = .ok .next st' ∧ Steps S.v st st' [] false ∧ st'.mem = st.mem) :
    ∃ st', execSs C (stmtsOf l) st = .ok .next st' ∧ Steps S.v st st' [] false ∧ st'.mem = st.mem := by
  induction l generalizing st with
  | nil => exact ⟨st, rfl, Steps.refl, rfl⟩
  | cons s l ih =>
    obtain ⟨st1, r1, s1, m1⟩ := h s (List.mem_cons_self ..) st
    obtain ⟨st2, r2, s2, m2⟩ := ih (fun s hs => h s (List.mem_cons_of_mem _ hs)) (st := st1)
    exact ⟨st2, (execSs_cons r1).trans r2, s1.trans s2, m2.trans m1⟩

/-- Logging text -/
theorem exec_log (hS : Setup S L) {q : List Str} (hq : Shallow q) {this : Option (List Str)} {s : Str} {more : List Expr} {vs : List Val}
    {level : Str} (hl : Levels S.U level)
    (hm : evalList (cx S L fuel n q this) more st = .ok vs st) (h : c!"(Actual value received by SUT on ".isPrefixOf s = false) :
    ∃ st', execS (cx S L fuel n q this) (logged S.U S.v level (.str s) more) st = .ok .next st' ∧ Steps S.v st st' [] false ∧ st'.mem = st.mem := by
  have := exec_logged (S := S) (fuel := fuel) (n := n) (this := this) hq hS.lib hl (evalList_cons (eval_str (st := st) (s := s)) hm)
  exact ⟨_, this, Steps.one (logEff_quiet h).1 (logEff_quiet h).2, rfl⟩

theorem evalList_one {C : Ctx} {s : Str} : evalList C [.str s] st = .ok [.str s] st := evalList_cons eval_str evalList_nil

/-! ### sending -/

theorem in_mem {s : State} {c : Channel} {t : Transition} (h : s.in_ = some (c, t)) :
    ∃ ts ∈ s.transitionSets, ts.channel = c ∧ t ∈ ts.transitions ∧ c.isIn = true := by
  unfold State.in_ at h
  generalize s.transitionSets = l at h ⊢
  induction l with
  | nil => cases h
  | cons ts l ih =>
    unfold State.in_.go at h
    split at h
    · rename_i hi
      split at h
      · obtain ⟨ts', h1, h2⟩ := ih h
        exact ⟨ts', List.mem_cons_of_mem _ h1, h2⟩
      · rename_i e
        simp only [Option.some.injEq, Prod.mk.injEq] at h
        obtain ⟨rfl, rfl⟩ := h
        simp only [Bool.and_eq_true] at hi
        exact ⟨ts, List.mem_cons_self .., rfl, by rw [e]; exact List.mem_cons_self .., hi.1⟩
    · obtain ⟨ts', h1, h2⟩ := ih h
      exact ⟨ts', List.mem_cons_of_mem _ h1, h2⟩

/-- The channels of the sets of states are those of the aggregates -/
theorem agg_of_set {m : Stm} {s : State} (hs : s ∈ m.states) {ts : TSet} (ht : ts ∈ s.transitionSets) :
    ∃ a ∈ m.aggregates, a.channel = ts.channel := by
  have h := (C38_aggregates m).1
  have : ts.channel ∈ m.aggregates.map (·.channel) := by
    rw [h, mem_firstUses]
    exact List.mem_flatMap.2 ⟨s, hs, List.mem_map.2 ⟨ts, ht, rfl⟩⟩
  obtain ⟨a, ha, e⟩ := List.mem_map.1 this
  exact ⟨a, ha, e⟩

theorem set_of_agg {m : Stm} {a : AggregateSet} (ha : a ∈ m.aggregates) : ∃ s ∈ m.states, ∃ ts ∈ s.transitionSets, ts.channel = a.channel := by
  have h := (C38_aggregates m).1
  have : a.channel ∈ m.aggregates.map (·.channel) := List.mem_map.2 ⟨a, ha, rfl⟩
  rw [h, mem_firstUses] at this
  obtain ⟨s, hs, ht⟩ := List.mem_flatMap.1 this
  obtain ⟨ts, ht, e⟩ := List.mem_map.1 ht
  exact ⟨s, hs, ts, ht, e⟩

theorem pub_any {a : AggregateSet} (ha : a ∈ S.tc.in_) (hv : S.v = .ros) :
    (S.prog.fields [SM]).any (fun f => f.2.1 = publisherName S.U a.channel ++ c!"_") = true := by
  rw [S.fields_sm]
  unfold Src.smFieldList
  rw [if_pos hv, List.any_cons, List.any_append, List.any_map, Bool.or_eq_true, Bool.or_eq_true]
  right
  right
  exact List.any_eq_true.2 ⟨a, ha, by simp⟩

theorem convertTo_head (U : Unicode) (x : Str) : (convertTo U x).head? = some 't' := rfl

theorem convertFrom_head (U : Unicode) (x : Str) : (convertFrom U x).head? = some 'f' := rfl

theorem conv_quiet (v : Variant) {w : Str} (hw : w.head? = some 't' ∨ w.head? = some 'f') (vs : List Val) :
    isSend v (.call [w] vs) = false ∧ isShutdown (.call [w] vs) = false := by
  refine ⟨?_, by simp [isShutdown]⟩
  unfold isSend
  have : w ≠ c!".publish" := by
    rintro rfl
    simp at hw
  simp [this]

theorem exec_send (hS : Setup S L) {f : Str} {p : List Str} {s : State} (hs : s ∈ S.m.states) {c : Channel} {t : Transition}
    (hi : s.in_ = some (c, t)) (hloc : ∀ x, getLocal st x = none) (hP : Pubs S L p st) :
    ∃ st', execS (cx S L fuel n [SM, f] (some p)) (sendS S.U S.v c t) st = .ok .next st' ∧
      Steps S.v st st' [sendEffect L S.U S.v (c, t.value)] false ∧ st'.mem = st.mem := by
  obtain ⟨ts, hts, hc, ht, hin⟩ := in_mem hi
  have hval := hS.values s hs ts hts t ht
  have hk := (hS.lib.convert s hs ts hts).1
  have hcl := (hS.names.convert s hs ts hts).1
  rw [hc] at hk hcl
  have h1 := call_conv (n := n) (fuel := fuel) (st := st) hS (q := [SM, f]) (.inl ⟨f, rfl⟩) (this := some p)
    (.inl (convertTo_head S.U c.name)) hk hcl (eval_value hval)
  have hq := conv_quiet S.v (.inl (convertTo_head S.U c.name)) [valueVal t.value]
  let st1 : St := { st with eff := st.eff ++ [.call [convertTo S.U c.name] [valueVal t.value]] }
  by_cases hv : S.v = Variant.ros
  · obtain ⟨a, ha, hac⟩ := agg_of_set hs hts
    have ha' : a ∈ S.tc.in_ := by
      unfold Src.tc
      rw [(C39_partition S.m).2.2.1]
      refine List.mem_filter.2 ⟨ha, ?_⟩
      rw [hac, hc, ← isIn_eq]
      exact hin
    obtain ⟨hr1, hr2, hr3⟩ := hS.lib.ros hv
    have hpub := hP hv a ha'
    obtain ⟨_, hadv⟩ := hr3 s hs ts hts
    rw [hac, hc] at hpub
    obtain ⟨h, hh⟩ := hadv [.lib (L.make [c!"ros", c!"NodeHandle"]), .str (topicName S.U c), .int 1000]
    rw [hc] at hh
    have hpl : publisher L S.U c = .lib h := hh
    rw [hpl] at hpub
    have hany := pub_any (S := S) ha' hv
    rw [hac, hc] at hany
    have hx : evalE (cx S L fuel n [SM, f] (some p)) (.name [publisherName S.U c ++ c!"_"]) st = .ok (.lib h) st :=
      name_field (hloc _) hany hpub
    have h2 := eval_libMethod hx (evalList_cons h1 evalList_nil) (hr2 ([c!".publish"], 2) (by decide))
    have e : sendS S.U S.v c t = .expr (mcall (publisherName S.U c ++ c!"_") c!"publish" [convE S.U c t.value]) := if_pos hv
    rw [e]
    refine ⟨_, execS_expr h2, ?_, rfl⟩
    · refine ⟨rfl, rfl, rfl, [.call [convertTo S.U c.name] [valueVal t.value],
        .call [c!".publish"] (.lib h :: [L.val [convertTo S.U c.name] [valueVal t.value]])], ?_, ?_, ?_⟩
      · simp
      · unfold sendEffect
        rw [List.filter_cons, hq.1, if_neg (by simp), List.filter_cons, if_pos hv, hpl]
        simp [isSend, hv]
      · simp [isShutdown]
  · have h2 := exec_logged (S := S) (fuel := fuel) (n := n) (this := some p) (shallow_sm f) hS.lib hS.info
      (evalList_cons (eval_str (st := st) (s := c!"(Actual value received by SUT on " ++ c.name ++ c!" after conversion: "))
        (evalList_cons h1 (evalList_cons (eval_str (s := c!")")) evalList_nil)))
    have hva : S.v = .animate := by
      rcases hS.env.v with h | h
      · exact h
      · exact absurd h hv
    have e : sendS S.U S.v c t = logged S.U S.v c!"info" (.str (c!"(Actual value received by SUT on " ++ c.name ++ c!" after conversion: "))
        [convE S.U c t.value, .str c!")"] := if_neg hv
    rw [e]
    refine ⟨_, h2, ?_, rfl⟩
    · refine ⟨rfl, rfl, rfl, _, List.append_assoc .., ?_, ?_⟩
      · unfold sendEffect logEff
        rw [List.cons_append, List.nil_append, List.filter_cons, hq.1, if_neg (by simp), List.filter_cons, if_neg hv, if_neg hv, if_pos]
        · rfl
        · rw [hva]
          rfl
      · unfold logEff
        rw [if_neg hv]
        rfl

/-! ### entry functions -/

theorem find_state (hS : Setup S L) {s : State} (hs : s ∈ S.m.states) : S.m.states.find? (fun x => x.id = s.id) = some s := by
  cases hf : S.m.states.find? (fun x => x.id = s.id) with
  | none =>
    have := List.find?_eq_none.1 hf s hs
    simp at this
  | some x =>
    have h1 := List.mem_of_find?_eq_some hf
    have h2 := List.find?_some hf
    simp only [decide_eq_true_eq] at h2
    rw [state_inj hS h1 hs (by rw [h2])]

/-- What `settle` sends -/
def sending (s : State) : List (Channel × Value) :=
  if s.verdict.isFail then [] else if s.hasIn then s.in_.toList.map (fun x => (x.1, x.2.value)) else []

theorem settle_sent (s : State) (c : Harness.Config) : (Harness.settle s c).sent = c.sent ++ sending s := by
  unfold Harness.settle sending
  split
  · rw [finish_eq]; simp
  · split
    · cases s.in_ <;> simp
    · simp

theorem exec_settle (hS : Setup S L) {f : Str} {p : List Str} {s : State} (hs : s ∈ S.m.states) {c : Harness.Config}
    (hloc : ∀ x, getLocal st x = none) (hc : Core S p c st) (hP : s.hasIn = true → Pubs S L p st) :
    ∃ st', execSs (cx S L fuel (n + 2) [SM, f] (some p)) (stmtsOf (settleS S.U S.v s)) st = .ok .next st' ∧ Core S p (Harness.settle s c) st' ∧
      Steps S.v st st' ((sending s).map (sendEffect L S.U S.v))
        (decide (S.v = .ros) && c.status.isRunning && !(Harness.settle s c).status.isRunning) ∧ Stay p st st' := by
  unfold settleS Harness.settle sending
  by_cases hf : s.verdict.isFail = true
  · simp only [hf, if_true]
    obtain ⟨st', r, h1, h2, h3⟩ := exec_end (n := n) (fuel := fuel) (f := f) hS hc .fail
    exact ⟨st', execSs_cons r, h1, h2, h3⟩
  · simp only [hf, Bool.false_eq_true, if_false]
    have assign : ∀ x : Status, ∃ st', execS (cx S L fuel (n + 2) [SM, f] (some p)) (.expr (.assign (nm c!"status_") (status (statusWord x)))) st =
        .ok .next st' ∧ Core S p { c with status := x } st' ∧ Steps S.v st st' [] false ∧ Stay p st st' := by
      intro x
      refine ⟨_, execS_expr (assign_field (eval_status (shallow_sm f) x) (hloc _) (field_any (.inl rfl))), hc.status_upd rfl,
        Steps.refl.congr rfl rfl rfl rfl rfl rfl rfl, Stay.upd rfl (.inl rfl)⟩
    by_cases hi : s.hasIn = true
    · simp only [hi, if_true]
      obtain ⟨st1, r1, c1, s1, y1⟩ := assign .waitIn
      have hrun : ∀ b, (decide (S.v = Variant.ros) && b && !Status.waitIn.isRunning) = false := by simp [Status.isRunning]
      cases hin : s.in_ with
      | none =>
        refine ⟨st1, execSs_cons r1, c1, ?_, y1⟩
        rw [hrun]
        exact s1
      | some x =>
        obtain ⟨ch, t⟩ := x
        have hl1 : ∀ x, getLocal st1 x = none := by
          intro x
          have := hloc x
          unfold getLocal at this ⊢
          rw [s1.loc]
          exact this
        obtain ⟨st2, r2, s2, m2⟩ := exec_log (S := S) (fuel := fuel) (n := n + 2) (st := st1) (this := some p) hS (shallow_sm f)
          (s := c!"State '" ++ s.id ++ c!"' sends " ++ t.value.stringValue ++ c!" to SUT on " ++ ch.name ++ c!"; ") hS.info
          (evalList_one (s := c!"if accepted, next state will be '" ++ t.next ++ c!"'.")) rfl
        have hl2 : ∀ x, getLocal st2 x = none := by
          intro x
          have := hl1 x
          unfold getLocal at this ⊢
          rw [s2.loc]
          exact this
        have hP2 : Pubs S L p st2 := (hP hi).stay hS (y1.trans (Stay.of_mem m2))
        obtain ⟨st3, r3, s3, m3⟩ := exec_send (n := n + 2) (fuel := fuel) (f := f) hS hs hin hl2 hP2
        refine ⟨st3, (execSs_cons r1).trans ((execSs_cons r2).trans (execSs_cons r3)), ?_, ?_, ?_⟩
        · have := (c1.congr m2).congr m3
          exact ⟨this.status, this.state, this.known, this.object, this.tests⟩
        · rw [hrun]
          exact (s1.trans s2).trans s3
        · exact (y1.trans (Stay.of_mem m2)).trans (Stay.of_mem m3)
    · simp only [hi, Bool.false_eq_true, if_false]
      obtain ⟨st1, r1, c1, s1, y1⟩ := assign .waitOut
      have hrun : ∀ b, (decide (S.v = Variant.ros) && b && !Status.waitOut.isRunning) = false := by simp [Status.isRunning]
      obtain ⟨st2, r2, s2, m2⟩ := exec_quiet (S := S) (C := cx S L fuel (n + 2) [SM, f] (some p)) (st := st1)
        (s.transitionSets.flatMap (fun ts => ts.transitions.map (receivingS S.U S.v s ts.channel))) (by
          intro x hx st
          obtain ⟨ts, _, hx⟩ := List.mem_flatMap.1 hx
          obtain ⟨t, _, rfl⟩ := List.mem_map.1 hx
          exact exec_log hS (shallow_sm f) hS.info evalList_one rfl)
      refine ⟨st2, (execSs_cons r1).trans r2, c1.congr m2, ?_, y1.trans (Stay.of_mem m2)⟩
      rw [hrun]
      exact s1.trans s2

theorem mem_entry {s : State} (hs : s ∈ S.m.states) : (stateEntry S.U s.id, entryItem S.U S.v s) ∈ S.sm := by
  unfold Src.sm smFns
  rw [List.mem_append]
  exact .inr (List.mem_map.2 ⟨s, hs, rfl⟩)

theorem wf_perm {α : Type} {m : GoMap Str α} (h : GoMap.WF m) : GoMap.WF (sortEntries m) := by
  unfold GoMap.WF at h ⊢
  unfold sortEntries
  exact (((List.mergeSort_perm m _).map (·.1)).nodup_iff).2 h

theorem get_sort {α : Type} {m : GoMap Str α} (h : GoMap.WF m) (k : Str) : GoMap.get? (sortEntries m) k = GoMap.get? m k :=
  (GoMap.get?_perm h (List.mergeSort_perm m _).symm).symm

/-- An entry function does what `enter` says. -/
theorem run_enter (hS : Setup S L) {p : List Str} {s : State} (hs : s ∈ S.m.states) {c : Harness.Config} (hc : Core S p c st)
    (hP : s.hasIn = true → Pubs S L p st) :
    ∃ st', callFn S.prog L fuel (n + 3) [SM, stateEntry S.U s.id] (some p) [] st = .ok .void st' ∧ Core S p (Harness.enter S.m s.id c) st' ∧
      (Harness.enter S.m s.id c).sent = c.sent ++ sending s ∧
      Steps S.v st st' ((sending s).map (sendEffect L S.U S.v))
        (decide (S.v = .ros) && c.status.isRunning && !(Harness.enter S.m s.id c).status.isRunning) ∧ Stay p st st' := by
  let C := cx S L fuel (n + 2) [SM, stateEntry S.U s.id] (some p)
  let st0 : St := { st with loc := [] }
  let c1 : Harness.Config := { c with state := s.id }
  have hl0 : ∀ x, getLocal st0 x = none := fun _ => rfl
  have he : Harness.enter S.m s.id c = Harness.settle s (Harness.setVerdicts s.verdict c1) := by
    unfold Harness.enter
    simp only [find_state hS hs]
    rfl
  have h1 : evalE C (.assign (nm c!"state_") (stateE S.U s.id)) st0 = .ok (stateVal S.U s.id)
      { st0 with mem := upd st0.mem (p ++ [c!"state_"]) (stateVal S.U s.id) } :=
    assign_field (eval_state (shallow_sm _) hs) (hl0 _) (field_any (.inr (.inr rfl)))
  let st1 : St := { st0 with mem := upd st0.mem (p ++ [c!"state_"]) (stateVal S.U s.id) }
  have hc1 : Core S p c1 st1 := by
    refine ⟨?_, upd_same .., List.mem_map.2 ⟨s, hs, rfl⟩, ?_, ?_⟩
    · show upd st.mem _ _ _ = _
      rw [upd_other (by simp)]; exact hc.status
    · show upd st.mem _ _ _ = _
      rw [upd_other (by simp)]; exact hc.object
    · intro t ht
      obtain ⟨o, h1, h2⟩ := hc.tests t ht
      refine ⟨o, h1, ?_⟩
      show upd st.mem _ _ _ = _
      rw [upd_other (by simp)]
      exact h2
  have y1 : Stay p st st1 := Stay.upd rfl (.inr rfl)
  obtain ⟨st2, r2, s2, m2⟩ := exec_log (S := S) (fuel := fuel) (n := n + 2) (st := st1) (this := some p) hS
    (shallow_sm (stateEntry S.U s.id)) (s := c!"Entered state " ++ s.id ++ c!".") hS.info evalList_nil rfl
  have hc2 := hc1.congr m2
  have hl2 : ∀ x, getLocal st2 x = none := by
    intro x
    unfold getLocal
    rw [s2.loc]
    rfl
  obtain ⟨hw, hv⟩ := hS.names.verdicts s hs
  obtain ⟨st3, r3, s3, t3, a3⟩ := set_verdicts (n := n + 1) (fuel := fuel) (f := stateEntry S.U s.id) (p := p) (st := st2) hS (sortEntries s.verdict)
    (fun e he => ⟨hv e ((Exec.mem_sortEntries _ _).1 he), hS.verdicts s hs e ((Exec.mem_sortEntries _ _).1 he)⟩) (hl2 _) hc2.object hc2.tests
  have hne : ∀ x y, p ++ [x] ≠ p ++ [c!"verdict_"] ++ [y] := by
    intro x y h
    have := congrArg List.length h
    simp at this
  have hc3 : Core S p (Harness.setVerdicts s.verdict c1) st3 := by
    refine ⟨?_, ?_, hc2.known, ?_, ?_⟩
    · rw [a3 _ (hne _)]; exact hc2.status
    · rw [a3 _ (hne _)]; exact hc2.state
    · rw [a3 _ (hne _)]; exact hc2.object
    · intro t ht
      obtain ⟨o, h1, h2⟩ := t3 t ht
      refine ⟨o, ?_, h2⟩
      rw [← h1]
      unfold Harness.setVerdicts
      simp only
      rw [Harness.get?_setAll _ _ hw, Harness.get?_setAll _ _ (wf_perm hw), get_sort hw]
  have y3 : Stay p st1 st3 := fun x _ _ => by rw [a3 _ (hne _), m2]
  have hl3 : ∀ x, getLocal st3 x = none := by
    intro x
    have := hl2 x
    unfold getLocal at this ⊢
    rw [s3.loc]
    exact this
  obtain ⟨st4, r4, c4, s4, y4⟩ := exec_settle (n := n) (fuel := fuel) (f := stateEntry S.U s.id) hS hs hl3 hc3
    (fun h => (hP h).stay hS (y1.trans y3))
  have hx : execSs C (bodyOf (entryItem S.U S.v s)) st0 = .ok .next st4 := by
    unfold entryItem bodyOf
    simp only [List.cons_append, List.nil_append]
    refine (execSs_cons (execS_expr h1)).trans ((execSs_cons r2).trans ?_)
    rw [execSs_append r3]
    exact r4
  refine ⟨_, callFn_run (fn_of hS (mem_entry hs)) rfl hx rfl, ?_, ?_, ?_, ?_⟩
  · rw [he]; exact c4.congr rfl
  · rw [he, settle_sent]; rfl
  · rw [he]
    have hst : Steps S.v st0 st1 [] false := Steps.refl.congr rfl rfl rfl rfl rfl rfl rfl
    have := ((hst.trans s2).trans s3).trans s4
    exact this.congr rfl rfl rfl rfl rfl rfl rfl
  · exact (y1.trans y3).trans (y4.trans (Stay.of_mem rfl))

end

end Sem

end Cpp

end Spec

end Rtcg
