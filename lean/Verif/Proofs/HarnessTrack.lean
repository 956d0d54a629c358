import Mathlib.Data.List.Induction
import Verif.Proofs.HarnessGen
import Verif.Spec.HarnessTree

/-
Running generated tests: following a tree.
-/

namespace Rtcg.Harness

open Rtcg Spec

/-- The test is where its tree says, having seen `seen`. -/
structure Tracks (T : Node) (c : Config) (seen : List Callback) (p : Path) (n : Node) : Prop where
  at_ : nodeAt T p = some n
  alive : n.outcome ≠ oFail
  state : c.state = n.id
  above : ∀ q n', q <+: p → q ≠ p → q ≠ [] → nodeAt T q = some n' → ¬ Fails n'
  cases : (c.status.isRunning = true ∧ seen = seenTo T p ∧ (c.status = .waitStart → p = []) ∧ (c.status ≠ .waitStart → ¬ Fails n)) ∨
    (c.status = .fail ∧ Fails n ∧ seenTo T p <+: seen) ∨
    (∃ cb rest, cb ≠ .start ∧ c.status = derail cb ∧ seen = seenTo T p ++ cb :: rest ∧ ¬ Continues n cb ∧ (p ≠ [] → ¬ Fails n))
  waits : (c.status = .waitIn → RootInput n) ∧ (c.status = .waitOut → ¬ RootInput n)

theorem derail_ended {cb : Callback} (h : cb ≠ .start) : (derail cb).isRunning = false := by
  cases cb <;> first | rfl | exact absurd rfl h

theorem above_nil {T : Node} : ∀ (q : Path) (n' : Node), q <+: [] → q ≠ [] → q ≠ [] → nodeAt T q = some n' → ¬ Fails n' :=
  fun q _ hq hne => absurd (List.prefix_nil.1 hq) hne

section Tree

variable {T : Node} {m : Stm} (hT : MachineOf T m)

include hT

theorem prefix_snoc {q p : Path} {i : Nat} (h : q <+: p ++ [i]) (hne : q ≠ p ++ [i]) : q <+: p := by
  rcases List.prefix_concat_iff.1 (by simpa using h) with h | h
  · exact absurd h hne
  · exact h

theorem hasIn_node {p : Path} {n : Node} (hn : nodeAt T p = some n) : (pureState n).hasIn = true ↔ RootInput n := by
  unfold State.hasIn
  rw [List.any_eq_true]
  constructor
  · rintro ⟨ts, hts, hk⟩
    obtain ⟨t, ht⟩ := set_nonempty n hts
    obtain ⟨i, k, e, hi, hko, hke, hch, _⟩ := mem_branches_child hT hn ((mem_pureState n ts.channel t).1 ⟨ts, hts, rfl, ht⟩)
    exact ⟨k, List.mem_of_getElem? hi, hko, e, hke, by rw [← hch]; exact of_decide_eq_true hk⟩
  · rintro ⟨k, hk, hko, e, hke, hkind⟩
    obtain ⟨ts, hts, hch, _⟩ := (mem_pureState n e.channel ⟨e.value, k.id⟩).2 (mem_branches.2 ⟨k, hk, hko, e, hke, rfl, rfl⟩)
    exact ⟨ts, hts, by rw [hch]; exact decide_eq_true hkind⟩

theorem enter_waits {p : Path} {n : Node} (hn : nodeAt T p = some n) (ho : n.outcome ≠ oFail) (c : Config) (hr : c.status.isRunning = true) :
    ((enter m n.id c).status = .waitIn → RootInput n) ∧ ((enter m n.id c).status = .waitOut → ¬ RootInput n) := by
  by_cases hf : Fails n
  · rw [(enter_status hT hn ho c hr).1 hf]
    exact ⟨by simp, by simp⟩
  · rw [enter_node hT hn ho, (settle_status (pureState n) (setVerdicts (pureState n).verdict { c with state := n.id })).2
      (by rw [← Bool.not_eq_true]; exact fun h => hf ((fails_iff n).1 h)), ← hasIn_node hT hn]
    cases (pureState n).hasIn <;> simp

theorem track_enter {c : Config} (hr : c.status.isRunning = true) {p : Path} {n : Node} (hn : nodeAt T p = some n)
    (ho : n.outcome ≠ oFail) (above : ∀ q n', q <+: p → q ≠ p → q ≠ [] → nodeAt T q = some n' → ¬ Fails n') :
    Tracks T (enter m n.id c) (seenTo T p) p n := by
  refine ⟨hn, ho, enter_state_eq hT hn ho c, above, ?_, enter_waits hT hn ho c hr⟩
  obtain ⟨h1, h2⟩ := enter_status hT hn ho c hr
  by_cases hf : Fails n
  · exact Or.inr (Or.inl ⟨h1 hf, hf, List.prefix_rfl⟩)
  · left
    rcases h2 hf with h | h <;> rw [h] <;> exact ⟨rfl, rfl, by simp, fun _ => hf⟩

theorem initial_id : initial m = T.id := by
  unfold initial Stm.initialState
  rw [hT.states]
  obtain ⟨ys, hys⟩ := List.head?_eq_some_iff.1 (listsNonFailing_visit hT.wf).2.2
  rw [hys]
  exact pureState_id T

theorem root_alive : T.outcome ≠ oFail := by rw [hT.wf.1.2.1]; decide

theorem track_construct : Tracks T (construct m) [] [] T := by
  unfold construct
  rw [initial_id hT]
  split
  · exact ⟨rfl, root_alive hT, rfl, above_nil, Or.inl ⟨rfl, rfl, fun _ => rfl, fun h => absurd rfl h⟩, by simp, by simp⟩
  · exact track_enter hT rfl (p := []) rfl (root_alive hT) above_nil

theorem track_step {c : Config} {seen : List Callback} {p : Path} {n : Node} (h : Tracks T c seen p n) (cb : Callback) :
    ∃ p' n', Tracks T (deliver m c cb) (seen ++ [cb].filter (sees (treeEvents T))) p' n' := by
  unfold deliver
  by_cases hr : c.status.isRunning = true
  · rw [if_pos hr]
    obtain ⟨hat, halive, hstate, habove, hc, hwt⟩ := h
    have hc : seen = seenTo T p ∧ (c.status = .waitStart → p = []) ∧ (c.status ≠ .waitStart → ¬ Fails n) := by
      rcases hc with ⟨_, h⟩ | ⟨h, _⟩ | ⟨cb', rest, hcb', h, _⟩
      · exact h
      · rw [h] at hr; cases hr
      · rw [h, derail_ended hcb'] at hr; cases hr
    obtain ⟨hseen, hw1, hw2⟩ := hc
    by_cases hcb : cb = .start
    · subst hcb
      have hs : [Callback.start].filter (sees (treeEvents T)) = [] := rfl
      rw [hs, List.append_nil]
      simp only [step, initialDelayCallback]
      split
      · split
        · exact ⟨p, n, hat, halive, hstate, habove, Or.inl ⟨hr, hseen, hw1, hw2⟩, hwt⟩
        · rename_i hws
          have hws : c.status = .waitStart := by simpa using hws
          have hp := hw1 hws
          subst hp
          rw [initial_id hT, hseen]
          exact ⟨[], T, track_enter hT hr (p := []) rfl (root_alive hT) above_nil⟩
      · exact ⟨p, n, hat, halive, hstate, habove, Or.inl ⟨hr, hseen, hw1, hw2⟩, hwt⟩
    · rcases tree_step hT hat halive c hstate cb hcb with ⟨hs, he⟩ | ⟨hs, i, k, e, hi, hko, hke, hobs, he⟩ | ⟨hs, hno, he⟩
      · rw [he, List.filter_cons_of_neg (by rw [hs]; simp), List.filter_nil, List.append_nil]
        exact ⟨p, n, hat, halive, hstate, habove, Or.inl ⟨hr, hseen, hw1, hw2⟩, hwt⟩
      · rw [he, List.filter_cons_of_pos hs, List.filter_nil]
        obtain ⟨hk, _⟩ := child_ok hT hat hi
        refine ⟨p ++ [i], k, ?_⟩
        have := track_enter hT hr hk hko (by
          intro q n' hq hqne hq0 hn'
          have hq := prefix_snoc hT hq hqne
          by_cases hqp : q = p
          · subst hqp
            rw [hat] at hn'
            cases hn'
            refine hw2 (fun hws => hq0 (hw1 hws))
          · exact habove q n' hq hqp hq0 hn')
        rw [seenTo_snoc hat hi hke, hobs, ← hseen] at this
        exact this
      · rw [he, List.filter_cons_of_pos hs, List.filter_nil, finish_running hr (derail_ended hcb)]
        exact ⟨p, n, hat, halive, hstate, habove, Or.inr (Or.inr ⟨cb, [], hcb, rfl, by rw [hseen], hno, fun hp => hw2 (fun hws => hp (hw1 hws))⟩),
          by cases cb <;> simp_all [derail]⟩
  · rw [if_neg hr]
    obtain ⟨hat, halive, hstate, habove, hc, hwt⟩ := h
    refine ⟨p, n, hat, halive, hstate, habove, ?_, hwt⟩
    rcases hc with ⟨h, _⟩ | ⟨h1, h2, h3⟩ | ⟨cb', rest, h1, h2, h3, h4, h5⟩
    · exact absurd h hr
    · exact Or.inr (Or.inl ⟨h1, h2, h3.trans (List.prefix_append _ _)⟩)
    · refine Or.inr (Or.inr ⟨cb', rest ++ [cb].filter (sees (treeEvents T)), h1, h2, ?_, h4, h5⟩)
      rw [h3]
      simp

theorem track_run (cbs : List Callback) : ∃ p n, Tracks T (run m cbs) (cbs.filter (sees (treeEvents T))) p n := by
  suffices h : ∀ (cbs : List Callback) (c : Config) (seen : List Callback) (p : Path) (n : Node), Tracks T c seen p n →
      ∃ p n, Tracks T (cbs.foldl (deliver m) c) (seen ++ cbs.filter (sees (treeEvents T))) p n from by
    have := h cbs (construct m) [] [] T (track_construct hT)
    rw [List.nil_append] at this
    exact this
  intro cbs
  induction cbs with
  | nil => intro c seen p n h; exact ⟨p, n, by simpa using h⟩
  | cons cb cbs ih =>
    intro c seen p n h
    obtain ⟨p', n', h'⟩ := track_step hT h cb
    obtain ⟨p2, n2, h2⟩ := ih _ _ _ _ h'
    refine ⟨p2, n2, ?_⟩
    rw [List.foldl_cons]
    rw [List.append_assoc, ← List.filter_append] at h2
    exact h2

/-- In a deterministic tree, what is seen determines the path. -/
theorem path_of_seen (hd : Deterministic T) (p : Path) : ∀ (q : Path) (n n' : Node), nodeAt T p = some n → n.outcome ≠ oFail →
    nodeAt T q = some n' → n'.outcome ≠ oFail → seenTo T p <+: seenTo T q → p <+: q := by
  induction p using List.reverseRecOn with
  | nil => intro q _ _ _ _ _ _ _; exact List.nil_prefix
  | append_singleton p i ih =>
    intro q n n' hp ho hq ho' hs
    rw [nodeAt_snoc] at hp
    cases ha : nodeAt T p with
    | none => rw [ha] at hp; cases hp
    | some a =>
      rw [ha] at hp
      have hp : a.next[i]? = some n := hp
      have hao : a.outcome ≠ oFail := by
        intro hf
        have := failLeaf_of_wellFormed hT.wf p a ha hf
        rw [this] at hp
        simp at hp
      obtain ⟨e, he⟩ := (child_ok hT ha hp).2 ho
      rw [seenTo_snoc ha hp he] at hs
      obtain ⟨r, rfl⟩ := ih q a n' ha hao hq ho' ((List.prefix_append _ _).trans hs)
      rw [seenTo_append ha, List.prefix_append_right_inj] at hs
      cases r with
      | nil => simp [seenTo, eventsTo] at hs
      | cons j r =>
        rw [show p ++ j :: r = p ++ [j] ++ r by simp, nodeAt_append] at hq
        cases hb : nodeAt T (p ++ [j]) with
        | none => rw [hb] at hq; cases hq
        | some b =>
          have hb' := hb
          rw [nodeAt_snoc, ha] at hb
          have hb : a.next[j]? = some b := hb
          have hbo : b.outcome ≠ oFail := by
            intro hf
            have hl := failLeaf_of_wellFormed hT.wf _ b hb' hf
            rw [hb'] at hq
            cases r with
            | nil => simp [nodeAt] at hq; subst hq; exact ho' hf
            | cons x r => simp [nodeAt, hl] at hq
          obtain ⟨e', he'⟩ := (child_ok hT ha hb).2 hbo
          have : seenTo a (j :: r) = observed e' :: seenTo b r := by
            simp [seenTo, eventsTo, hb, he']
          rw [this, List.cons_prefix_cons] at hs
          have := hd p a ha i j n b e e' hp hb ho hbo he he' hs.1
          subst this
          simp

/-! ### verdicts and inputs along the path -/

omit hT in
theorem get?_setAll (v base : GoMap Str Outcome) (hv : GoMap.WF v) (x : Str) :
    GoMap.get? (v.foldl (fun m kv => GoMap.set m kv.1 kv.2) base) x = (GoMap.get? v x).or (GoMap.get? base x) := by
  induction v generalizing base with
  | nil => simp [GoMap.get?]
  | cons a v ih =>
    obtain ⟨k, o⟩ := a
    have hv' : GoMap.WF v := by unfold GoMap.WF at hv ⊢; rw [List.map_cons, List.nodup_cons] at hv; exact hv.2
    rw [List.foldl_cons, ih _ hv', GoMap.get?_set]
    simp only [GoMap.get?]
    by_cases hk : k = x
    · subst hk
      have : GoMap.get? v k = none := by
        rw [GoMap.get?_eq_none_iff]
        unfold GoMap.WF at hv
        rw [List.map_cons, List.nodup_cons] at hv
        exact hv.1
      simp [this]
    · simp [hk]

omit hT in
theorem keys_setAll (v base : GoMap Str Outcome) (h : ∀ x o, (x, o) ∈ v → x ∈ base.keys) :
    GoMap.keys (v.foldl (fun m kv => GoMap.set m kv.1 kv.2) base) = base.keys := by
  induction v generalizing base with
  | nil => rfl
  | cons a v ih =>
    have hk : (GoMap.set base a.1 a.2).keys = base.keys := by
      rw [GoMap.keys_set, if_pos (h a.1 a.2 (by simp))]
    rw [List.foldl_cons, ih, hk]
    intro x o hx
    rw [hk]
    exact h x o (by simp [hx])

theorem enter_verdict {p : Path} {n : Node} (hn : nodeAt T p = some n) (ho : n.outcome ≠ oFail) (c : Config) (x : Str) :
    GoMap.get? (enter m n.id c).verdict x = (lastOutcome n x).or (GoMap.get? c.verdict x) := by
  rw [enter_node hT hn ho, (settle_state _ _).2]
  unfold setVerdicts
  rw [get?_setAll _ _ (pureState_verdict_wf n), pureState_verdict]

theorem enter_keys {p : Path} {n : Node} (hn : nodeAt T p = some n) (ho : n.outcome ≠ oFail) (c : Config)
    (hk : c.verdict.keys = GoSet.values m.tests) : (enter m n.id c).verdict.keys = GoSet.values m.tests := by
  rw [enter_node hT hn ho, (settle_state _ _).2]
  unfold setVerdicts
  rw [← hk]
  refine keys_setAll _ _ ?_
  intro x o hx
  show x ∈ c.verdict.keys
  rw [hk]
  exact hT.tests _ (node_state hT hn ho) x o (GoMap.get?_of_mem (pureState_verdict_wf n) hx)

omit hT in
theorem verdictTo_snoc {n a k : Node} {p : Path} {i : Nat} (x : Str) (h : nodeAt n p = some a) (hi : a.next[i]? = some k) :
    verdictTo n x (p ++ [i]) = (lastOutcome k x).or (verdictTo n x p) := by
  induction p generalizing n with
  | nil =>
    simp [nodeAt] at h
    subst h
    simp [verdictTo, hi]
  | cons j p ih =>
    simp only [nodeAt] at h
    simp only [List.cons_append, verdictTo]
    cases hj : n.next[j]? with
    | none => rw [hj] at h; cases h
    | some c => rw [hj] at h; simp only; rw [ih h, Option.or_assoc]

omit hT in
theorem offersTo_snoc {n a k : Node} {p : Path} {i : Nat} (h : nodeAt n p = some a) (hi : a.next[i]? = some k) :
    offersTo n (p ++ [i]) = offersTo n p ++ offer k := by
  induction p generalizing n with
  | nil =>
    simp [nodeAt] at h
    subst h
    simp [offersTo, hi]
  | cons j p ih =>
    simp only [nodeAt] at h
    simp only [List.cons_append, offersTo]
    cases hj : n.next[j]? with
    | none => rw [hj] at h; cases h
    | some c => rw [hj] at h; simp only; rw [ih h, List.append_assoc]

/-- At most one of the non-failing continuations of the node is an input. -/
def OneInput (n : Node) : Prop := ((branches n).filter (fun a => a.1.kind = kIn)).length ≤ 1

omit hT in
theorem offer_eq (n : Node) :
    inputsOf ((n.next.filter fun c => c.outcome ≠ oFail).flatMap fun c => c.event.toList) =
      ((branches n).filter (fun a => a.1.kind = kIn)).map (fun a => (a.1, a.2.value)) := by
  unfold inputsOf branches
  induction n.next with
  | nil => rfl
  | cons k l ih =>
    by_cases ho : k.outcome = oFail
    · rw [List.filter_cons_of_neg (by simpa using ho), ih]
      simp [ho]
    · rw [List.filter_cons_of_pos (by simpa using ho), List.flatMap_cons, List.filter_append, List.map_append, ih]
      cases he : k.event with
      | none => simp [ho, he]
      | some e =>
        simp only [ho, he, if_false, Option.map_some, List.filterMap_cons]
        by_cases hk : e.channel.kind = kIn <;> simp [hk]

omit hT in
theorem in_go_skip (sets : List TSet) (h : ∀ ts ∈ sets, ts.channel.kind ≠ kIn) (rest : List TSet) :
    State.in_.go (sets ++ rest) = State.in_.go rest := by
  induction sets with
  | nil => rfl
  | cons ts sets ih =>
    rw [List.cons_append, State.in_.go, if_neg, ih (fun t ht => h t (by simp [ht]))]
    simp [isIn_eq, h ts (by simp)]

omit hT in
/-- With at most one input among the continuations, the state has it as its input. -/
theorem in_branches (n : Node) (h1 : OneInput n) :
    ((branches n).filter (fun a => a.1.kind = kIn) = [] ∧ (pureState n).hasIn = false) ∨
    (∃ a, (branches n).filter (fun a => a.1.kind = kIn) = [a] ∧ (pureState n).hasIn = true ∧ (pureState n).in_ = some a) := by
  have hmem := mem_pureState n
  obtain ⟨g1, g2⟩ := grouped_group (branches n)
  rw [← pureState_sets] at g1 g2
  match hb : (branches n).filter (fun a => a.1.kind = kIn) with
  | [] =>
    left
    refine ⟨hb, ?_⟩
    unfold State.hasIn
    rw [List.any_eq_false]
    intro ts hts
    rw [isIn_eq]
    simp only [decide_eq_true_eq]
    intro hk
    obtain ⟨t, ht⟩ := set_nonempty n hts
    have := (hmem ts.channel t).1 ⟨ts, hts, rfl, ht⟩
    have : (ts.channel, t) ∈ (branches n).filter (fun a => a.1.kind = kIn) := List.mem_filter.2 ⟨this, by simpa using hk⟩
    rw [hb] at this
    cases this
  | [a] =>
    right
    refine ⟨a, hb, ?_⟩
    have ha : a ∈ (branches n).filter (fun a => a.1.kind = kIn) := by rw [hb]; simp
    obtain ⟨ha, hak⟩ := List.mem_filter.1 ha
    simp only [decide_eq_true_eq] at hak
    obtain ⟨ts, hts, hc, ht⟩ := (hmem a.1 a.2).2 ha
    have hkts : ts.channel.kind = kIn := by rw [hc]; exact hak
    have htr : ts.transitions = [a.2] := by
      rw [g2 ts hts]
      have : (branches n).filter (fun x => x.1 = ts.channel) = ((branches n).filter (fun x => x.1.kind = kIn)).filter (fun x => x.1 = ts.channel) := by
        rw [List.filter_filter]
        apply List.filter_congr
        intro x _
        by_cases hx : x.1 = ts.channel
        · simp [hx, hkts]
        · simp [hx]
      rw [this, hb]
      simp [hc]
    constructor
    · unfold State.hasIn
      rw [List.any_eq_true]
      exact ⟨ts, hts, by rw [isIn_eq]; simpa using hkts⟩
    · unfold State.in_
      obtain ⟨l, r, hlr⟩ := List.append_of_mem hts
      rw [hlr, in_go_skip]
      · rw [State.in_.go, if_pos (by simp [isIn_eq, hkts, htr]), htr]
        simp [hc]
      · intro ts' hts' hk'
        obtain ⟨t', ht'⟩ := set_nonempty n (ts := ts') (by rw [hlr]; simp [hts'])
        have hm := (hmem ts'.channel t').1 ⟨ts', by rw [hlr]; simp [hts'], rfl, ht'⟩
        have : (ts'.channel, t') ∈ (branches n).filter (fun a => a.1.kind = kIn) := List.mem_filter.2 ⟨hm, by simpa using hk'⟩
        rw [hb, List.mem_singleton] at this
        have hch : ts'.channel = ts.channel := by rw [hc, ← this]
        have hnd : ((pureState n).transitionSets.map (·.channel)).Nodup := by rw [g1]; exact firstUses_nodup _
        rw [hlr, List.map_append, List.map_cons, List.nodup_append] at hnd
        exact hnd.2.2 ts'.channel (List.mem_map_of_mem hts') ts'.channel (by rw [hch]; simp) rfl
  | a :: b :: l => unfold OneInput at h1; rw [hb] at h1; simp at h1

theorem enter_sent {p : Path} {n : Node} (hn : nodeAt T p = some n) (ho : n.outcome ≠ oFail) (h1 : OneInput n) (c : Config) :
    (enter m n.id c).sent = c.sent ++ offer n := by
  rw [enter_node hT hn ho]
  unfold offer
  rw [offer_eq]
  by_cases hf : Fails n
  · rw [if_pos hf, (settle_status _ _).1 ((fails_iff n).2 hf), List.append_nil]
    unfold finish
    split
    · rfl
    · split <;> rfl
  · rw [if_neg hf]
    have hfb : (pureState n).verdict.isFail = false := by
      rw [← Bool.not_eq_true]; exact fun h => hf ((fails_iff n).1 h)
    unfold settle
    rw [if_neg (by rw [hfb]; simp)]
    rcases in_branches n h1 with ⟨hb, hin⟩ | ⟨a, hb, hin, hia⟩
    · rw [hb, hin]; simp [setVerdicts]
    · rw [hb, hin, hia]
      rfl

omit hT in
theorem oneInput_of_deterministic {T : Node} (hd : Deterministic T) {p : Path} {n : Node} (hn : nodeAt T p = some n) : OneInput n := by
  unfold OneInput
  have key : ∀ l : List Node, (∀ (i j : Nat) (a b : Node) (e e' : Event), l[i]? = some a → l[j]? = some b → a.outcome ≠ oFail →
      b.outcome ≠ oFail → a.event = some e → b.event = some e' → observed e = observed e' → i = j) →
      ((l.filterMap fun c => if c.outcome = oFail then none else c.event.map fun e => (e.channel, ({ value := e.value, next := c.id } : Transition))).filter
        (fun a => a.1.kind = kIn)).length ≤ 1 := by
    intro l
    induction l with
    | nil => intro _; simp
    | cons k l ih =>
      intro h
      have hl := ih (by
        intro i j a b e e' h1 h2 h3 h4 h5 h6 h7
        have := h (i + 1) (j + 1) a b e e' (by simpa using h1) (by simpa using h2) h3 h4 h5 h6 h7
        omega)
      by_cases ho : k.outcome = oFail
      · simpa [ho] using hl
      · cases he : k.event with
        | none => simpa [ho, he] using hl
        | some e =>
          simp only [List.filterMap_cons, ho, if_false, he, Option.map_some]
          by_cases hk : e.channel.kind = kIn
          · rw [List.filter_cons_of_pos (by simpa using hk), List.length_cons]
            suffices hz : ((l.filterMap fun c => if c.outcome = oFail then none else c.event.map fun e => (e.channel, ({ value := e.value, next := c.id } : Transition))).filter
                (fun a => a.1.kind = kIn)) = [] by rw [hz]; simp
            rw [List.filter_eq_nil_iff]
            intro a ha
            simp only [decide_eq_true_eq]
            intro hak
            obtain ⟨b, hb, hbe⟩ := List.mem_filterMap.1 ha
            obtain ⟨j, hj⟩ := List.getElem?_of_mem hb
            by_cases hbo : b.outcome = oFail
            · rw [if_pos hbo] at hbe; cases hbe
            · rw [if_neg hbo] at hbe
              cases hbev : b.event with
              | none => rw [hbev] at hbe; cases hbe
              | some e' =>
                rw [hbev] at hbe
                simp only [Option.map_some, Option.some.injEq] at hbe
                subst hbe
                have hak' : e'.channel.kind = kIn := hak
                have := h 0 (j + 1) k b e e' rfl (by simpa using hj) ho hbo he hbev (by simp [observed, hk, hak'])
                omega
          · rw [List.filter_cons_of_neg (by simpa using hk)]; exact hl
  exact key n.next (hd p n hn)

/-- The start is over, and verdicts and inputs so far are those of the path. -/
structure Recorded (T : Node) (m : Stm) (c : Config) (p : Path) : Prop where
  started : c.status ≠ .waitStart
  root : p ≠ [] → ¬ Fails T
  verdict : ∀ x ∈ GoSet.values m.tests, GoMap.get? c.verdict x = some ((verdictTo T x p).getD oUnset)
  sent : (∀ q n, nodeAt T q = some n → OneInput n) → c.sent = offersTo T p
  failed : Fails T → c.status = .fail
  waits : ∀ n, nodeAt T p = some n → (c.status = .waitIn → RootInput n) ∧ (c.status = .waitOut → ¬ RootInput n)

theorem record_enter_root (c : Config) (hr : c.status.isRunning = true)
    (hv : ∀ x ∈ GoSet.values m.tests, GoMap.get? c.verdict x = some oUnset) (hs : c.sent = []) : Recorded T m (enter m T.id c) [] := by
  have hn : nodeAt T [] = some T := rfl
  have ho := root_alive hT
  refine ⟨?_, fun h => absurd rfl h, ?_, ?_, ?_, ?_⟩
  · obtain ⟨h1, h2⟩ := enter_status hT hn ho c hr
    by_cases hf : Fails T
    · rw [h1 hf]; simp
    · rcases h2 hf with h | h <;> rw [h] <;> simp
  · intro x hx
    rw [enter_verdict hT hn ho, hv x hx]
    simp only [verdictTo]
    cases lastOutcome T x <;> rfl
  · intro h1
    rw [enter_sent hT hn ho (h1 [] T hn), hs]; rfl
  · exact (enter_status hT hn ho c hr).1
  · intro n hn'
    rw [hn] at hn'
    cases hn'
    exact enter_waits hT hn ho c hr

theorem record_step {c : Config} {seen : List Callback} {p : Path} {n : Node} (h : Tracks T c seen p n) (hrec : Recorded T m c p) (cb : Callback) :
    ∃ p' n', Tracks T (deliver m c cb) (seen ++ [cb].filter (sees (treeEvents T))) p' n' ∧ Recorded T m (deliver m c cb) p' := by
  by_cases hr : c.status.isRunning = true
  · obtain ⟨p', n', ht⟩ := track_step hT h cb
    have hd : deliver m c cb = step m c cb := by unfold deliver; rw [if_pos hr]
    rw [hd] at ht ⊢
    -- where the state is
    have same : ∀ c' : Config, c'.state = c.state → c'.verdict = c.verdict → c'.sent = c.sent → c'.status ≠ .waitStart →
        c'.status = c.status ∨ c'.status.isRunning = false → step m c cb = c' → ∃ p' n', Tracks T (step m c cb) (seen ++ [cb].filter (sees (treeEvents T))) p' n' ∧ Recorded T m (step m c cb) p' := by
      intro c' h1 h2 h3 h4 h6 h5
      refine ⟨p', n', ht, ?_⟩
      have hid : n'.id = n.id := by rw [← ht.state, ← h.state, h5, h1]
      have hp := (node_unique hT ht.at_ ht.alive h.at_ h.alive hid).1
      rw [hp, h5]
      refine ⟨h4, hrec.root, by rw [h2]; exact hrec.verdict, by rw [h3]; exact hrec.sent, fun hf => ?_, fun n₁ hn₁ => ?_⟩
      · rw [hrec.failed hf] at hr
        cases hr
      · rcases h6 with h6 | h6
        · rw [h6]; exact hrec.waits n₁ hn₁
        · exact ⟨fun h => (by rw [h] at h6; cases h6), fun h => (by rw [h] at h6; cases h6)⟩
    by_cases hcb : cb = .start
    · subst hcb
      exact same c rfl rfl rfl hrec.started (.inl rfl) (start_noop hrec.started)
    · rcases tree_step hT h.at_ h.alive c h.state cb hcb with ⟨_, he⟩ | ⟨_, i, k, e, hi, hko, hke, hobs, he⟩ | ⟨_, _, he⟩
      · exact same c rfl rfl rfl hrec.started (.inl rfl) he
      · obtain ⟨hk, _⟩ := child_ok hT h.at_ hi
        refine ⟨p', n', ht, ?_⟩
        have hid : n'.id = k.id := by rw [← ht.state, he]; exact enter_state_eq hT hk hko c
        have hp := (node_unique hT ht.at_ ht.alive hk hko hid).1
        rw [hp, he]
        refine ⟨?_, ?_, ?_, ?_, fun hf => ?_, fun n₁ hn₁ => ?_⟩
        · obtain ⟨h1, h2⟩ := enter_status hT hk hko c hr
          by_cases hf : Fails k
          · rw [h1 hf]; simp
          · rcases h2 hf with h | h <;> rw [h] <;> simp
        · intro _
          by_cases hp0 : p = []
          · subst hp0
            have hnT : n = T := by have := h.at_; simp [nodeAt] at this; exact this.symm
            rcases h.cases with ⟨_, _, _, hnf⟩ | ⟨hx, _⟩ | ⟨cb', _, hcb', hx, _⟩
            · rw [← hnT]; exact hnf hrec.started
            · rw [hx] at hr; cases hr
            · rw [hx, derail_ended hcb'] at hr; cases hr
          · exact hrec.root hp0
        · intro x hx
          rw [enter_verdict hT hk hko, verdictTo_snoc x h.at_ hi, hrec.verdict x hx]
          cases lastOutcome k x <;> rfl
        · intro h1
          rw [enter_sent hT hk hko (h1 _ k hk), hrec.sent h1, offersTo_snoc h.at_ hi]
        · rw [hrec.failed hf] at hr
          cases hr
        · rw [hk] at hn₁
          cases hn₁
          exact enter_waits hT hk hko c hr
      · rw [finish_running hr (derail_ended hcb)] at he
        refine same { c with status := derail cb } rfl rfl rfl ?_ (.inr (derail_ended hcb)) he
        cases cb with
        | start => exact absurd rfl hcb
        | _ => simp [derail]
  · obtain ⟨p', n', ht⟩ := track_step hT h cb
    have hd : deliver m c cb = c := by unfold deliver; rw [if_neg hr]
    rw [hd] at ht ⊢
    refine ⟨p', n', ht, ?_⟩
    have hp := (node_unique hT ht.at_ ht.alive h.at_ h.alive (by rw [← ht.state, ← h.state])).1
    rw [hp]
    exact hrec

theorem record_fold (cbs : List Callback) (c : Config) (seen : List Callback) (p : Path) (n : Node) (h : Tracks T c seen p n)
    (hrec : Recorded T m c p) :
    ∃ p n, Tracks T (cbs.foldl (deliver m) c) (seen ++ cbs.filter (sees (treeEvents T))) p n ∧ Recorded T m (cbs.foldl (deliver m) c) p := by
  induction cbs generalizing c seen p n with
  | nil => exact ⟨p, n, by simpa using h, hrec⟩
  | cons cb cbs ih =>
    obtain ⟨p', n', h', hrec'⟩ := record_step hT h hrec cb
    obtain ⟨p2, n2, h2, hrec2⟩ := ih _ _ _ _ h' hrec'
    refine ⟨p2, n2, ?_, hrec2⟩
    rw [List.append_assoc, ← List.filter_append] at h2
    exact h2

/-- The verdict fields before anything is entered. -/
theorem blank_verdict (x : Str) (hx : x ∈ GoSet.values m.tests) :
    GoMap.get? ((GoSet.values m.tests).map (fun t => (t, Outcome.unset))) x = some oUnset := by
  generalize GoSet.values m.tests = l at hx
  induction l with
  | nil => cases hx
  | cons a l ih =>
    simp only [List.map_cons, GoMap.get?]
    by_cases ha : a = x
    · rw [if_pos ha]; rfl
    · rw [if_neg ha]
      rcases List.mem_cons.1 hx with h | h
      · exact absurd h.symm ha
      · exact ih h

theorem record_run (cbs : List Callback) (hstart : (TransitionContext.make m).firstStateHasIn = true → StartedIn (treeEvents T) cbs) :
    ∃ p n, Tracks T (run m cbs) (cbs.filter (sees (treeEvents T))) p n ∧ Recorded T m (run m cbs) p := by
  by_cases hfirst : (TransitionContext.make m).firstStateHasIn = true
  · have hst := hstart hfirst
    have hc : construct m = ⟨T.id, .waitStart, (GoSet.values m.tests).map (fun t => (t, Outcome.unset)), []⟩ := by
      unfold construct; rw [if_pos hfirst, initial_id hT]
    -- before the start
    have key : ∀ cbs : List Callback, StartedIn (treeEvents T) cbs → ∃ rest : List Callback,
        cbs.foldl (deliver m) (construct m) = rest.foldl (deliver m) (enter m T.id (construct m)) ∧
          rest.filter (sees (treeEvents T)) = cbs.filter (sees (treeEvents T)) := by
      intro cbs
      induction cbs with
      | nil => intro h; cases h
      | cons cb cbs ih =>
        intro h
        unfold StartedIn at h
        by_cases hs : sees (treeEvents T) cb = true
        · rw [List.takeWhile_cons_of_neg (by simp [hs])] at h; cases h
        · rw [List.filter_cons_of_neg hs, List.foldl_cons]
          have hr : (construct m).status.isRunning = true := by rw [hc]; rfl
          have hd : deliver m (construct m) cb = step m (construct m) cb := by unfold deliver; rw [if_pos hr]
          rw [hd]
          by_cases hcb : cb = .start
          · subst hcb
            refine ⟨cbs, ?_, rfl⟩
            congr 1
            unfold step initialDelayCallback
            simp only [hfirst, if_true]
            rw [if_neg (by rw [hc]; simp), initial_id hT]
          · rw [List.takeWhile_cons_of_pos (by simp [hs])] at h
            have h' : StartedIn (treeEvents T) cbs := by
              rcases List.mem_cons.1 h with h | h
              · exact absurd h.symm hcb
              · exact h
            obtain ⟨rest, h1, h2⟩ := ih h'
            refine ⟨rest, ?_, h2⟩
            rw [← h1]
            congr 1
            rcases tree_step hT (p := []) rfl (root_alive hT) (construct m) (by rw [hc]) cb hcb with ⟨_, he⟩ | ⟨hs', _⟩ | ⟨hs', _⟩
            · exact he
            · exact absurd hs' hs
            · exact absurd hs' hs
    obtain ⟨rest, h1, h2⟩ := key cbs hst
    have hr : (construct m).status.isRunning = true := by rw [hc]; rfl
    have ht := track_enter hT hr (p := []) rfl (root_alive hT) above_nil
    have hrec := record_enter_root hT (construct m) hr (by rw [hc]; exact blank_verdict hT) (by rw [hc])
    obtain ⟨p, n, h3, h4⟩ := record_fold hT rest _ _ _ _ ht hrec
    unfold run
    rw [h1, ← h2]
    exact ⟨p, n, h3, h4⟩
  · have hc : construct m = enter m T.id ⟨T.id, .waitStart, (GoSet.values m.tests).map (fun t => (t, Outcome.unset)), []⟩ := by
      unfold construct; rw [if_neg hfirst, initial_id hT]
    have hrec : Recorded T m (construct m) [] := by
      rw [hc]
      exact record_enter_root hT _ rfl (blank_verdict hT) rfl
    have := record_fold hT cbs (construct m) [] [] T (track_construct hT) hrec
    rw [List.nil_append] at this
    exact this

end Tree

end Rtcg.Harness
