import Verif.Proofs.JsonMake
import Verif.Props.Harness

/-
Running generated tests: machines built from any validated tree.
-/

namespace Rtcg.Harness

open Rtcg Spec

/-! ### events of a tree -/

theorem treeEvents_go_eq (ns : List Node) : treeEvents.go ns = ns.flatMap treeEvents := by
  induction ns with
  | nil => rfl
  | cons n ns ih => rw [treeEvents.go, ih]; rfl

theorem mem_treeEvents {n : Node} {e : Event} : e ∈ treeEvents n ↔ ∃ p m, nodeAt n p = some m ∧ m.event = some e := by
  induction n using Node.ind with
  | h n ih =>
    have hq : treeEvents n = n.event.toList ++ n.next.flatMap treeEvents := by
      cases n; rw [treeEvents, treeEvents_go_eq]
    rw [hq, List.mem_append, List.mem_flatMap]
    constructor
    · rintro (h | ⟨c, hc, h⟩)
      · exact ⟨[], n, rfl, by simpa using h⟩
      · obtain ⟨p, m, hm, he⟩ := (ih c hc).1 h
        obtain ⟨i, hi⟩ := List.getElem?_of_mem hc
        exact ⟨i :: p, m, by simp [nodeAt, hi, hm], he⟩
    · rintro ⟨p, m, hm, he⟩
      cases p with
      | nil => simp [nodeAt] at hm; subst hm; left; simpa using he
      | cons i p =>
        simp only [nodeAt] at hm
        cases hi : n.next[i]? with
        | none => rw [hi] at hm; cases hm
        | some c =>
          rw [hi] at hm
          have hc := List.mem_of_getElem? hi
          exact Or.inr ⟨c, hc, (ih c hc).2 ⟨p, m, hm, he⟩⟩

theorem nodeAt_snoc (n : Node) (p : Path) (i : Nat) : nodeAt n (p ++ [i]) = (nodeAt n p).bind (fun m => m.next[i]?) := by
  induction p generalizing n with
  | nil =>
    simp only [List.nil_append, nodeAt, Option.bind_some]
    cases n.next[i]? <;> rfl
  | cons j p ih =>
    simp only [List.cons_append, nodeAt]
    cases n.next[j]? with
    | none => rfl
    | some c => exact ih c

theorem nodeAt_append (n : Node) (p q : Path) : nodeAt n (p ++ q) = (nodeAt n p).bind (fun m => nodeAt m q) := by
  induction p generalizing n with
  | nil => rfl
  | cons j p ih =>
    simp only [List.cons_append, nodeAt]
    cases n.next[j]? with
    | none => rfl
    | some c => exact ih c

theorem eventsTo_append {n m : Node} {p : Path} (h : nodeAt n p = some m) (q : Path) :
    eventsTo n (p ++ q) = eventsTo n p ++ eventsTo m q := by
  induction p generalizing n with
  | nil => simp [nodeAt] at h; subst h; rfl
  | cons j p ih =>
    simp only [nodeAt] at h
    simp only [List.cons_append, eventsTo]
    cases hj : n.next[j]? with
    | none => rw [hj] at h; cases h
    | some c => rw [hj] at h; simp only; rw [ih h, List.append_assoc]

theorem seenTo_append {n m : Node} {p : Path} (h : nodeAt n p = some m) (q : Path) : seenTo n (p ++ q) = seenTo n p ++ seenTo m q := by
  unfold seenTo
  rw [eventsTo_append h, List.map_append]

theorem seenTo_snoc {n m k : Node} {p : Path} {i : Nat} {e : Event} (h : nodeAt n p = some m) (hi : m.next[i]? = some k)
    (he : k.event = some e) : seenTo n (p ++ [i]) = seenTo n p ++ [observed e] := by
  rw [seenTo_append h]
  simp [seenTo, eventsTo, hi, he]

theorem seenTo_no_start (n : Node) (p : Path) (cb : Callback) (h : cb ∈ seenTo n p) : cb ≠ .start ∧ cb ≠ .timeout := by
  unfold seenTo at h
  obtain ⟨e, _, rfl⟩ := List.mem_map.1 h
  unfold observed
  split <;> simp

/-! ### the labelled tree -/

theorem eventsTo_writeIds (ids : Path → Option Str) (n : Node) (p q : Path) : eventsTo (Builder.writeIds ids p n) q = eventsTo n q := by
  induction q generalizing n p with
  | nil => rfl
  | cons i q ih =>
    rw [writeIds_eq]
    simp only [eventsTo, List.getElem?_mapIdx]
    cases n.next[i]? with
    | none => rfl
    | some c =>
      simp only [Option.map_some, ih]
      rw [(writeIds_id ids (p ++ [i]) c).2.2.2]

theorem lastOutcome_writeIds (ids : Path → Option Str) (p : Path) (n : Node) (test : Str) :
    lastOutcome (Builder.writeIds ids p n) test = lastOutcome n test := by
  unfold lastOutcome
  rw [writeIds_eq]
  simp only
  have : ∀ (l : List Node) (g : Nat → Node → Node), (∀ k c, (g k c).tests = c.tests ∧ (g k c).outcome = c.outcome) →
      (((l.mapIdx g).filter (fun c => test ∈ c.tests)).map (·.outcome)) = ((l.filter (fun c => test ∈ c.tests)).map (·.outcome)) := by
    intro l
    induction l with
    | nil => intro g _; rfl
    | cons c l ih =>
      intro g hg
      rw [List.mapIdx_cons]
      have := ih (fun k c => g (k + 1) c) (fun k c => hg (k + 1) c)
      by_cases ht : test ∈ c.tests
      · rw [List.filter_cons_of_pos (by simp [(hg 0 c).1, ht]), List.filter_cons_of_pos (by simp [ht])]
        simp only [List.map_cons, (hg 0 c).2]
        rw [← this]
      · rw [List.filter_cons_of_neg (by simp [(hg 0 c).1, ht]), List.filter_cons_of_neg (by simp [ht])]
        exact this
  rw [← List.getLast?_map, ← List.getLast?_map]
  rw [this]
  intro k c
  exact ⟨(writeIds_id ids _ c).2.1, (writeIds_id ids _ c).2.2.1⟩

/-! ### the machine -/

/-- What the harness needs of a machine: it is that of a tree whose node IDs are distinct. -/
structure MachineOf (T : Node) (m : Stm) : Prop where
  wf : WellFormed T
  states : m.states = (visit [] T).map (fun pn => pureState pn.2)
  nodup : (m.states.map (·.id)).Nodup
  tests : ∀ s ∈ m.states, ∀ x o, GoMap.get? s.verdict x = some o → x ∈ GoSet.values m.tests
  testsNodup : (GoSet.values m.tests).Nodup

theorem builtFrom_machineOf {root : Node} {m : Stm} (h : BuiltFrom root m) : MachineOf (labelled root) m := by
  obtain ⟨hno, b, t, b', t', hv, hb⟩ := h
  obtain ⟨hwf, ht, hm, _, _⟩ := build_ok hv hb
  exact ⟨(sameButIds_labelled root).wellFormed hwf, by rw [hm]; rfl, (C29_state_ids b b' root t t' m hv hb).2 hno,
    (C33_tests b b' root t t' m hv hb).2.2, (C33_tests b b' root t t' m hv hb).1⟩

section Tree

variable {T : Node} {m : Stm} (hT : MachineOf T m)

include hT

theorem mem_states {s : State} : s ∈ m.states ↔ ∃ p n, nodeAt T p = some n ∧ n.outcome ≠ oFail ∧ s = pureState n := by
  rw [hT.states, List.mem_map]
  constructor
  · rintro ⟨⟨p, n⟩, h, rfl⟩
    obtain ⟨h1, h2⟩ := ((listsNonFailing_visit hT.wf).1 p n).1 h
    exact ⟨p, n, h1, h2, rfl⟩
  · rintro ⟨p, n, h1, h2, rfl⟩
    exact ⟨(p, n), ((listsNonFailing_visit hT.wf).1 p n).2 ⟨h1, h2⟩, rfl⟩

theorem node_state {p : Path} {n : Node} (h : nodeAt T p = some n) (ho : n.outcome ≠ oFail) : pureState n ∈ m.states :=
  (mem_states hT).2 ⟨p, n, h, ho, rfl⟩

theorem node_unique {p p' : Path} {n n' : Node} (h : nodeAt T p = some n) (ho : n.outcome ≠ oFail) (h' : nodeAt T p' = some n')
    (ho' : n'.outcome ≠ oFail) (hid : n.id = n'.id) : p = p' ∧ n = n' := by
  have hl := (listsNonFailing_visit hT.wf).1
  have hnd := hT.nodup
  rw [hT.states, List.map_map] at hnd
  have := List.inj_on_of_nodup_map hnd ((hl p n).2 ⟨h, ho⟩) ((hl p' n').2 ⟨h', ho'⟩) (by
    simp only [Function.comp_apply, pureState_id]; exact hid)
  exact Prod.mk.inj this

theorem child_ok {p : Path} {n k : Node} {i : Nat} (h : nodeAt T p = some n) (hi : n.next[i]? = some k) :
    nodeAt T (p ++ [i]) = some k ∧ (k.outcome ≠ oFail → ∃ e, k.event = some e) := by
  have hk : nodeAt T (p ++ [i]) = some k := by rw [nodeAt_snoc, h]; exact hi
  refine ⟨hk, fun ho => ?_⟩
  have := (hT.wf.2 (p ++ [i]) k (by simp) hk).2
  rcases this with ⟨h, _⟩ | ⟨_, h, _⟩ | ⟨_, h, _⟩
  · exact absurd h ho
  · exact h
  · exact h

omit hT in
/-- The transitions of a node's state are its non-failing continuations. -/
theorem mem_pureState (n : Node) (ch : Channel) (t : Transition) :
    (∃ ts ∈ (pureState n).transitionSets, ts.channel = ch ∧ t ∈ ts.transitions) ↔ (ch, t) ∈ branches n := by
  rw [pureState_sets]
  obtain ⟨h1, h2⟩ := grouped_group (branches n)
  constructor
  · rintro ⟨ts, hts, rfl, ht⟩
    rw [h2 ts hts] at ht
    obtain ⟨⟨c, t'⟩, ha, rfl⟩ := List.mem_map.1 ht
    obtain ⟨ha, hc⟩ := List.mem_filter.1 ha
    simp only [decide_eq_true_eq] at hc
    rw [← hc]
    exact ha
  · intro h
    have : ch ∈ (group (branches n)).map (·.channel) := by
      rw [h1, mem_firstUses]; exact List.mem_map_of_mem (f := (·.1)) h
    obtain ⟨ts, hts, rfl⟩ := List.mem_map.1 this
    refine ⟨ts, hts, rfl, ?_⟩
    rw [h2 ts hts]
    exact List.mem_map.2 ⟨(ts.channel, t), List.mem_filter.2 ⟨h, by simp⟩, rfl⟩

omit hT in
theorem set_nonempty (n : Node) {ts : TSet} (h : ts ∈ (pureState n).transitionSets) : ∃ t, t ∈ ts.transitions := by
  rw [pureState_sets] at h
  obtain ⟨h1, h2⟩ := grouped_group (branches n)
  have : ts.channel ∈ (group (branches n)).map (·.channel) := List.mem_map_of_mem h
  rw [h1, mem_firstUses] at this
  obtain ⟨⟨c, t⟩, ha, hc⟩ := List.mem_map.1 this
  simp only at hc
  refine ⟨t, ?_⟩
  rw [h2 ts h]
  exact List.mem_map.2 ⟨(c, t), List.mem_filter.2 ⟨ha, by simpa using hc⟩, rfl⟩

theorem mem_branches_child {p : Path} {n : Node} (_h : nodeAt T p = some n) {ch : Channel} {t : Transition} (hb : (ch, t) ∈ branches n) :
    ∃ (i : Nat) (k : Node) (e : Event), n.next[i]? = some k ∧ k.outcome ≠ oFail ∧ k.event = some e ∧ ch = e.channel ∧ t = ⟨e.value, k.id⟩ := by
  obtain ⟨k, hk, ho, e, he, h1, h2⟩ := mem_branches.1 hb
  obtain ⟨i, hi⟩ := List.getElem?_of_mem hk
  exact ⟨i, k, e, hi, ho, he, h1, h2⟩

/-- Channels used by the machine are those of the events of the tree. -/
theorem machine_uses (P : Channel → Prop) :
    (∃ s ∈ m.states, ∃ ts ∈ s.transitionSets, P ts.channel) ↔ ∃ e ∈ treeEvents T, P e.channel := by
  constructor
  · rintro ⟨s, hs, ts, hts, hc⟩
    obtain ⟨p, n, hn, ho, rfl⟩ := (mem_states hT).1 hs
    obtain ⟨t, ht⟩ := set_nonempty n hts
    obtain ⟨i, k, e, hi, hko, he, hch, _⟩ := mem_branches_child hT hn ((mem_pureState n ts.channel t).1 ⟨ts, hts, rfl, ht⟩)
    exact ⟨e, mem_treeEvents.2 ⟨p ++ [i], k, (child_ok hT hn hi).1, he⟩, hch ▸ hc⟩
  · rintro ⟨e, he, hc⟩
    obtain ⟨q, k, hk, hke⟩ := mem_treeEvents.1 he
    rcases List.eq_nil_or_concat q with rfl | ⟨p, i, rfl⟩
    · simp [nodeAt] at hk
      subst hk
      rw [hT.wf.1.1] at hke
      cases hke
    · rw [List.concat_eq_append] at hk
      have hk' := hk
      rw [nodeAt_snoc] at hk
      cases hn : nodeAt T p with
      | none => rw [hn] at hk; cases hk
      | some n =>
        rw [hn] at hk
        have hk : n.next[i]? = some k := hk
        have hno : n.outcome ≠ oFail := by
          intro hf
          have := failLeaf_of_wellFormed hT.wf p n hn hf
          rw [this] at hk
          simp at hk
        have hko : k.outcome ≠ oFail := by
          intro hf
          have := hT.wf.2 (p ++ [i]) k (by simp) hk'
          rcases this.2 with ⟨_, h, _⟩ | ⟨h, _⟩ | ⟨h, _⟩
          · rw [h] at hke; cases hke
          · rw [hf] at h; exact absurd h (by decide)
          · rw [hf] at h; exact absurd h (by decide)
        obtain ⟨ts, hts, hch, _⟩ := (mem_pureState n e.channel ⟨e.value, k.id⟩).2
          (mem_branches.2 ⟨k, List.mem_of_getElem? hk, hko, e, hke, rfl, rfl⟩)
        exact ⟨_, node_state hT hn hno, ts, hts, hch ▸ hc⟩

/-- One callback in the state of a node: what it can do. -/
theorem tree_step {p : Path} {n : Node} (hn : nodeAt T p = some n) (ho : n.outcome ≠ oFail) (c : Config) (hst : c.state = n.id)
    (cb : Callback) (hcb : cb ≠ .start) :
    (sees (treeEvents T) cb = false ∧ step m c cb = c) ∨
    (sees (treeEvents T) cb = true ∧ ∃ (i : Nat) (k : Node) (e : Event), n.next[i]? = some k ∧ k.outcome ≠ oFail ∧ k.event = some e ∧ observed e = cb ∧
      step m c cb = enter m k.id c) ∨
    (sees (treeEvents T) cb = true ∧ ¬ Continues n cb ∧ step m c cb = finish (derail cb) c) := by
  have hs := node_state hT hn ho
  have hid : (pureState n).id = n.id := pureState_id n
  have hst' : c.state = (pureState n).id := by rw [hid, hst]
  cases cb with
  | start => exact absurd rfl hcb
  | timeout =>
    refine Or.inr (Or.inr ⟨rfl, ?_, ?_⟩)
    · rintro ⟨k, _, _, e, _, he⟩
      unfold observed at he
      split at he <;> cases he
    · simp only [step, timeoutCallback, derail]
      cases h : c.status.isRunning with
      | true => rfl
      | false => rw [finish_ended h]; rfl
  | accepted =>
    have huse := machine_uses hT (fun c => c.kind = kIn)
    by_cases h : ∃ e ∈ treeEvents T, e.channel.kind = kIn
    · have hsees : sees (treeEvents T) .accepted = true := by simpa [sees] using h
      right
      by_cases hin : ∃ ts ∈ (pureState n).transitionSets, ts.channel.kind = kIn
      · left
        refine ⟨hsees, ?_⟩
        have hne : inputsOfState (pureState n) ≠ [] := by
          obtain ⟨ts, hts, hk⟩ := hin
          obtain ⟨t, ht⟩ := set_nonempty n hts
          intro he
          have : t ∈ inputsOfState (pureState n) := List.mem_flatMap.2 ⟨ts, List.mem_filter.2 ⟨hts, by simpa using hk⟩, ht⟩
          rw [he] at this
          cases this
        obtain ⟨t, ht, heq⟩ := inputAccepted_in hT.nodup hs c hst' hin hne
        obtain ⟨ts, hts, ht⟩ := List.mem_flatMap.1 ht
        obtain ⟨hts, hk⟩ := List.mem_filter.1 hts
        simp only [decide_eq_true_eq] at hk
        obtain ⟨i, k, e, hi, hko, he, hch, rfl⟩ := mem_branches_child hT hn ((mem_pureState n ts.channel t).1 ⟨ts, hts, rfl, ht⟩)
        exact ⟨i, k, e, hi, hko, he, by simp [observed, ← hch, hk], heq⟩
      · right
        refine ⟨hsees, ?_, ?_⟩
        · rintro ⟨k, hk, hko, e, he, hobs⟩
          have hkin : e.channel.kind = kIn := by
            unfold observed at hobs
            split at hobs
            · assumption
            · cases hobs
          obtain ⟨ts, hts, hch, _⟩ := (mem_pureState n e.channel ⟨e.value, k.id⟩).2 (mem_branches.2 ⟨k, hk, hko, e, he, rfl, rfl⟩)
          exact hin ⟨ts, hts, hch ▸ hkin⟩
        · exact inputAccepted_bug hT.nodup hs (huse.2 h) c hst' (fun ts hts hk => hin ⟨ts, hts, hk⟩)
    · left
      refine ⟨by simpa [sees] using h, inputAccepted_none (fun h' => h (huse.1 h')) c⟩
  | output ch v =>
    have huse := machine_uses hT (fun c => c = ch)
    by_cases h : ∃ e ∈ treeEvents T, e.channel = ch ∧ ch.kind ≠ kIn
    · have hsees : sees (treeEvents T) (.output ch v) = true := by simpa [sees] using h
      obtain ⟨e0, he0, hc0, hk0⟩ := h
      have hu : UsesOut m ch := ⟨hk0, huse.2 ⟨e0, he0, hc0⟩⟩
      right
      have heq := outputCallback_used hT.nodup hs hu v c hst'
      cases hf : (onChannel (pureState n) ch).find? (fun t => t.value = v) with
      | some t =>
        left
        refine ⟨hsees, ?_⟩
        rw [hf] at heq
        have hv := List.find?_some hf
        simp only [decide_eq_true_eq] at hv
        obtain ⟨ts, hts, ht⟩ := List.mem_flatMap.1 (List.mem_of_find?_eq_some hf)
        obtain ⟨hts, hk⟩ := List.mem_filter.1 hts
        simp only [decide_eq_true_eq] at hk
        obtain ⟨i, k, e, hi, hko, he, hch, rfl⟩ := mem_branches_child hT hn ((mem_pureState n ts.channel t).1 ⟨ts, hts, rfl, ht⟩)
        refine ⟨i, k, e, hi, hko, he, ?_, heq⟩
        have hch' : e.channel = ch := by rw [← hch, hk]
        simp only at hv
        simp [observed, hch', hk0, hv]
      | none =>
        right
        rw [hf] at heq
        refine ⟨hsees, ?_, heq⟩
        rintro ⟨k, hk, hko, e, he, hobs⟩
        have hev : e.channel = ch ∧ e.value = v := by
          unfold observed at hobs
          split at hobs
          · cases hobs
          · simpa using hobs
        obtain ⟨ts, hts, hch, ht⟩ := (mem_pureState n e.channel ⟨e.value, k.id⟩).2 (mem_branches.2 ⟨k, hk, hko, e, he, rfl, rfl⟩)
        have := List.find?_eq_none.1 hf ⟨e.value, k.id⟩ (List.mem_flatMap.2 ⟨ts, List.mem_filter.2 ⟨hts, by simp [hch, hev.1]⟩, ht⟩)
        simp [hev.2] at this
    · left
      refine ⟨by simpa [sees] using h, outputCallback_unused ?_ v c⟩
      rintro ⟨hk, hu⟩
      obtain ⟨e, he, hc⟩ := huse.1 hu
      exact h ⟨e, he, hc, hk⟩

theorem enter_node {p : Path} {n : Node} (hn : nodeAt T p = some n) (ho : n.outcome ≠ oFail) (c : Config) :
    enter m n.id c = settle (pureState n) (setVerdicts (pureState n).verdict { c with state := n.id }) := by
  have := enter_state hT.nodup (node_state hT hn ho) c
  rw [pureState_id] at this
  exact this

omit hT in
theorem fails_iff (n : Node) : (pureState n).verdict.isFail = true ↔ Fails n := by
  unfold Verdict.isFail Fails
  rw [C40_is _ (pureState_verdict_wf n)]
  simp only [pureState_verdict]
  rfl

omit hT in
/-- Where an entry function leaves the status. -/
theorem settle_status (s : State) (c : Config) :
    (s.verdict.isFail = true → settle s c = finish .fail c) ∧
    (s.verdict.isFail = false → (settle s c).status = if s.hasIn then .waitIn else .waitOut) := by
  unfold settle
  constructor
  · intro h; rw [if_pos h]
  · intro h
    rw [if_neg (by rw [h]; simp)]
    cases s.hasIn with
    | false => rfl
    | true =>
      simp only [if_true]
      cases s.in_ <;> rfl

omit hT in
theorem settle_state (s : State) (c : Config) : (settle s c).state = c.state ∧ (settle s c).verdict = c.verdict := by
  unfold settle finish
  repeat' split
  all_goals exact ⟨rfl, rfl⟩

theorem enter_state_eq {p : Path} {n : Node} (hn : nodeAt T p = some n) (ho : n.outcome ≠ oFail) (c : Config) :
    (enter m n.id c).state = n.id := by
  rw [enter_node hT hn ho]
  exact (settle_state _ _).1

/-- Entering a node while the test runs. -/
theorem enter_status {p : Path} {n : Node} (hn : nodeAt T p = some n) (ho : n.outcome ≠ oFail) (c : Config) (hr : c.status.isRunning = true) :
    (Fails n → (enter m n.id c).status = .fail) ∧
    (¬ Fails n → (enter m n.id c).status = .waitIn ∨ (enter m n.id c).status = .waitOut) := by
  rw [enter_node hT hn ho]
  obtain ⟨h1, h2⟩ := settle_status (pureState n) (setVerdicts (pureState n).verdict { c with state := n.id })
  constructor
  · intro hf
    rw [h1 ((fails_iff n).2 hf), finish_running (c := setVerdicts (pureState n).verdict { c with state := n.id }) hr rfl]
  · intro hf
    rw [h2 (by rw [← Bool.not_eq_true]; exact fun h => hf ((fails_iff n).1 h))]
    cases (pureState n).hasIn <;> simp

end Tree

end Rtcg.Harness
