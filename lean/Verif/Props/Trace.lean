import Verif.Proofs.Trace
import Verif.Props.Lang
import Verif.Model.Csv

/-
C09 (traces), C15–C21, C42: forbidden traces, their names, their trees; factorisation.
-/

namespace Rtcg
open Rtcg.Spec

/-! ### C09 for traces -/

theorem isPrefixOf_iff (t other : Trace) : t.isPrefixOf other = true ↔ t <+: other := by
  have go : ∀ (t other : Trace), Trace.isPrefixOf.go t other = true ↔ t <+: other := by
    intro t
    induction t with
    | nil => intro other; simp [Trace.isPrefixOf.go]
    | cons e t ih =>
      intro other
      cases other with
      | nil => simp [Trace.isPrefixOf.go]
      | cons o other =>
        simp only [Trace.isPrefixOf.go, List.cons_prefix_cons]
        by_cases h : e.equals o = true
        · rw [h]
          rw [C09_event_equals] at h
          simp [h, ih]
        · simp only [h]
          rw [C09_event_equals] at h
          simp [h]
  unfold Trace.isPrefixOf
  split
  · rename_i h
    simp only [Bool.false_eq_true, false_iff]
    intro hp
    have := hp.length_le
    omega
  · exact go t other

/-- IsPrefixOf says exactly whether one trace is an initial segment of the other. -/
theorem C09_isPrefixOf (t other : Trace) : t.isPrefixOf other = true ↔ t <+: other := isPrefixOf_iff t other

/-- Equals on traces says exactly whether they are the same trace. -/
theorem C09_trace_equals (t other : Trace) : t.equals other = true ↔ t = other := by
  unfold Trace.equals
  simp only [Bool.and_eq_true, decide_eq_true_eq, isPrefixOf_iff]
  constructor
  · rintro ⟨h1, h2⟩; exact h2.eq_of_length h1
  · rintro rfl; exact ⟨rfl, List.prefix_refl _⟩

example : Trace.isPrefixOf [⟨⟨c!"a", .in_⟩, .int 1⟩] [⟨⟨c!"a", .in_⟩, .int 1⟩, ⟨⟨c!"b", .out⟩, .none⟩] = true ∧
    Trace.isPrefixOf [⟨⟨c!"a", .in_⟩, .int 2⟩] [⟨⟨c!"a", .in_⟩, .int 1⟩, ⟨⟨c!"b", .out⟩, .none⟩] = false := by decide

/-! ### C15, C16 -/

/-- Name ends; there are pairwise distinct non-empty names, one per trace, such that the result holds exactly each trace,
unchanged, under its name. -/
theorem C15_names_distinct (traces : List Forbidden) :
    ∃ (m : GoMap Str Forbidden) (names : List Str), Forbidden.nameAll traces = some m ∧ names.length = traces.length ∧ names.Nodup ∧ [] ∉ names ∧
      m.length = traces.length ∧ GoMap.WF m ∧
      (∀ i (h : i < names.length) (h' : i < traces.length), m.get? names[i] = some traces[i]) ∧
      (∀ k t, m.get? k = some t → k ∈ names) := by
  obtain ⟨names, h1, h2, h3, h4, _⟩ := nameAll_spec traces
  have hkeys : (names.zip traces).map (·.1) = names := List.map_fst_zip (by omega)
  have hwf : GoMap.WF (names.zip traces) := by unfold GoMap.WF; rw [hkeys]; exact h3
  refine ⟨_, names, h2, h1, h3, h4, by simp [h1], hwf, ?_, ?_⟩
  · intro i h h'
    apply GoMap.get?_of_mem hwf
    rw [List.mem_iff_getElem]
    exact ⟨i, by simp; omega, by simp⟩
  · intro k t hk
    have hm := GoMap.mem_of_get? hk
    exact (List.of_mem_zip hm).1

/-- Each trace gets the first candidate name not already taken by an earlier trace. -/
theorem C16_first_free (traces : List Forbidden) :
    ∃ (m : GoMap Str Forbidden) (names : List Str), Forbidden.nameAll traces = some m ∧ names.length = traces.length ∧ names.Nodup ∧
      (∀ i (h : i < names.length) (h' : i < traces.length),
        m.get? names[i] = some traces[i] ∧ FirstFree traces[i].name (names.take i) names[i]) := by
  obtain ⟨names, h1, h2, h3, h4, h5⟩ := nameAll_spec traces
  have hkeys : (names.zip traces).map (·.1) = names := List.map_fst_zip (by omega)
  have hwf : GoMap.WF (names.zip traces) := by unfold GoMap.WF; rw [hkeys]; exact h3
  refine ⟨_, names, h2, h1, h3, ?_⟩
  intro i h h'
  refine ⟨GoMap.get?_of_mem hwf ?_, h5 i h h'⟩
  rw [List.mem_iff_getElem]
  exact ⟨i, by simp; omega, by simp⟩

/-- Appending traces never changes the names of the earlier ones. -/
theorem C16_stable (ts us : List Forbidden) (m m' : GoMap Str Forbidden) (h : Forbidden.nameAll ts = some m)
    (h' : Forbidden.nameAll (ts ++ us) = some m') : ∀ k t, m.get? k = some t → m'.get? k = some t := by
  obtain ⟨n1, a1, a2, a3, a4, a5⟩ := nameAll_spec ts
  obtain ⟨n2, b1, b2, b3, b4, b5⟩ := nameAll_spec (ts ++ us)
  rw [h] at a2; rw [h'] at b2
  cases a2; cases b2
  have htake : n2.take ts.length = n1 := by
    have : ∀ i, i ≤ ts.length → n2.take i = n1.take i := by
      intro i
      induction i with
      | zero => intro _; simp
      | succ i ih =>
        intro hi
        have e := ih (by omega)
        have i1 : i < n1.length := by omega
        have i2 : i < n2.length := by simp at b1; omega
        rw [List.take_succ_eq_append_getElem i2, List.take_succ_eq_append_getElem i1, e]
        congr 2
        have f1 := a5 i i1 (by omega)
        have f2 := b5 i i2 (by simp; omega)
        rw [List.getElem_append_left (by omega)] at f2
        rw [e] at f2
        exact firstFree_unique f2 f1
    have := this ts.length (Nat.le_refl _)
    rw [this, ← a1, List.take_length]
  intro k t hk
  have hwf : GoMap.WF (n2.zip (ts ++ us)) := by
    unfold GoMap.WF; rw [List.map_fst_zip (by omega)]; exact b3
  apply GoMap.get?_of_mem hwf
  have hm := GoMap.mem_of_get? hk
  have : n2 = n1 ++ n2.drop ts.length := by rw [← htake, List.take_append_drop]
  rw [this, List.zip_append (by omega)]
  exact List.mem_append_left _ hm

/-- Not vacuous: unnamed traces, a trace named `test`, clashes with synthesised names. -/
example : (Forbidden.nameAll ([[], c!"foo", c!"foo0", c!"foo", c!"test", c!"foo", []].map (fun n => ⟨n, [], Event.zero⟩))).map
    (fun m => m.map (fun kv => kv.1)) =
    some [c!"test0", c!"foo", c!"foo0", c!"foo1", c!"test1", c!"foo2", c!"test2"] := by decide +kernel

/-! ### C17 -/

/-- The tree of a trace: an outcome-less, event-less root, then the single branch of the prefix events (inconclusive), the
forbidden event (pass) and the failing leaf, everything tagged with exactly the name. -/
theorem C17_expand_shape (t : Forbidden) (name : Str) :
    t.expand name = { id := [], tests := [name], outcome := oUnset, event := none, next := branch name (spineOf t) } :=
  expand_eq t name

/-- The same, pointer by pointer: the only nodes are those at depth 0 … length of the prefix + 2, with the stated labels. -/
theorem C17_expand_nodes (t : Forbidden) (name : Str) (p : Path) (n : Node) :
    nodeAt (t.expand name) p = some n → n.tests = [name] ∧ n.id = [] ∧ p = List.replicate p.length 0 ∧
      (if p.length = 0 then n.outcome = oUnset ∧ n.event = none
       else if h : p.length ≤ t.pre.length then n.outcome = oInc ∧ n.event = t.pre[p.length - 1]?
       else if p.length = t.pre.length + 1 then n.outcome = oPass ∧ n.event = some t.forbid
       else p.length = t.pre.length + 2 ∧ n.outcome = oFail ∧ n.event = none ∧ n.next = []) := by
  intro h
  have gen : ∀ (l : List (Outcome × Option Event)) (m : Node) (p : Path) (n : Node), m.next = branch name l →
      nodeAt m p = some n → p = List.replicate p.length 0 ∧
      (p = [] ∧ n = m ∨ ∃ o e, l[p.length - 1]? = some (o, e) ∧ p ≠ [] ∧
        n = { id := [], tests := [name], outcome := o, event := e, next := branch name (l.drop p.length) }) := by
    intro l
    induction l with
    | nil =>
      intro m p n hm hn
      cases p with
      | nil => simp [nodeAt] at hn; exact ⟨rfl, Or.inl ⟨rfl, hn.symm⟩⟩
      | cons i p => simp [nodeAt, hm, branch] at hn
    | cons oe l ih =>
      obtain ⟨o, e⟩ := oe
      intro m p n hm hn
      cases p with
      | nil => simp [nodeAt] at hn; exact ⟨rfl, Or.inl ⟨rfl, hn.symm⟩⟩
      | cons i p =>
        simp only [nodeAt, hm, branch] at hn
        cases i with
        | succ i => simp at hn
        | zero =>
          simp only [List.getElem?_cons_zero] at hn
          obtain ⟨h1, h2⟩ := ih _ p n rfl hn
          refine ⟨by simp only [List.length_cons, List.replicate_succ]; rw [← h1], Or.inr ?_⟩
          rcases h2 with ⟨rfl, rfl⟩ | ⟨o', e', h3, h4, h5⟩
          · exact ⟨o, e, by simp, by simp, by simp⟩
          · refine ⟨o', e', ?_, by simp, ?_⟩
            · have : p.length ≠ 0 := by simpa using h4
              obtain ⟨k, hk⟩ : ∃ k, p.length = k + 1 := ⟨p.length - 1, by omega⟩
              rw [hk] at h3
              simp only [List.length_cons, hk]
              simpa using h3
            · simpa using h5
  rw [expand_eq] at h
  obtain ⟨h1, h2⟩ := gen (spineOf t) _ p n rfl h
  rcases h2 with ⟨rfl, rfl⟩ | ⟨o, e, h3, h4, rfl⟩
  · exact ⟨rfl, rfl, rfl, by simp⟩
  · refine ⟨rfl, rfl, h1, ?_⟩
    have hl : p.length ≠ 0 := by simpa using h4
    rw [if_neg hl]
    obtain ⟨k, hk⟩ : ∃ k, p.length = k + 1 := ⟨p.length - 1, by omega⟩
    rw [hk] at h3 ⊢
    simp only [Nat.add_sub_cancel] at h3 ⊢
    unfold spineOf at h3 ⊢
    split
    · rename_i hle
      rw [List.getElem?_append_left (by simp; omega)] at h3
      have hlt : k < t.pre.length := by omega
      simp [hlt] at h3
      simp [← h3.1, ← h3.2, hlt]
    · rename_i hle
      rw [List.getElem?_append_right (by simp; omega)] at h3
      simp only [List.length_map] at h3
      split
      · rename_i heq
        have : k - t.pre.length = 0 := by omega
        rw [this] at h3
        simp at h3
        exact ⟨h3.1.symm, h3.2.symm⟩
      · rename_i hneq
        obtain ⟨d, hd⟩ : ∃ d, k - t.pre.length = d + 1 := ⟨k - t.pre.length - 1, by omega⟩
        rw [hd] at h3
        cases d with
        | succ d => simp at h3
        | zero =>
          simp at h3
          refine ⟨by omega, h3.1.symm, h3.2.symm, ?_⟩
          rw [List.drop_eq_nil_of_le (by simp; omega)]; rfl

example : (Forbidden.expand ⟨[], [⟨⟨c!"a", .in_⟩, .none⟩], ⟨⟨c!"b", .out⟩, .int 1⟩⟩ c!"t").size = 4 ∧
    (nodeAt (Forbidden.expand ⟨[], [⟨⟨c!"a", .in_⟩, .none⟩], ⟨⟨c!"b", .out⟩, .int 1⟩⟩ c!"t") [0, 0]).map (·.outcome) =
      some .pass := by decide +kernel

/-! ### C18, C19 -/

/-- Validation accepts every expansion. -/
theorem C18_expansion_valid (t : Forbidden) (name : Str) :
    Validate.full (some (t.expand name)) = some (.ok ⟨t.expand name⟩) :=
  (full_ok_iff _ _).2 ⟨rfl, expand_wellFormed t name⟩

theorem expandAll_eq (m : GoMap Str Forbidden) (hm : GoMap.WF m) :
    Forbidden.expandAll m = m.map (fun kt => (kt.1, kt.2.expand kt.1)) :=
  overMap_keys (fun (k : Str) (t : Forbidden) => t.expand k) m hm

/-- Validation accepts every expanded suite. -/
theorem C18_expanded_suite_valid (m : GoMap Str Forbidden) (hm : GoMap.WF m) :
    Validate.fullSuite ((Forbidden.expandAll m).map (fun kn => (kn.1, some kn.2))) =
      .ok (m.map (fun kt => (kt.1, ⟨kt.2.expand kt.1⟩))) := by
  unfold Validate.fullSuite
  rw [expandAll_eq m hm, tryOver_ok_iff]
  · refine ⟨by simp, ?_⟩
    simp only [List.map_map]
    apply List.map_congr_left
    rintro ⟨k, t⟩ _
    simp only [Function.comp]
    rw [C18_expansion_valid]; rfl
  · unfold GoMap.WF at hm ⊢; simpa [List.map_map, Function.comp_def] using hm

/-- Collapsing an expansion gives back the prefix and the forbidden event. -/
theorem C19_collapse_expand (t : Forbidden) (name : Str) :
    Forbidden.collapse (t.expand name) = some (.ok { t with name := [] }) :=
  collapse_expand t name

/-- The same for whole suites, entry by entry. -/
theorem C19_collapseAll_expandAll (m : GoMap Str Forbidden) (hm : GoMap.WF m) :
    Forbidden.collapseAll (Forbidden.expandAll m) = .ok (m.map (fun kt => (kt.1, { kt.2 with name := [] }))) := by
  unfold Forbidden.collapseAll
  rw [expandAll_eq m hm, tryOver_ok_iff]
  · refine ⟨by simp, ?_⟩
    simp only [List.map_map]
    apply List.map_congr_left
    rintro ⟨k, t⟩ _
    simp only [Function.comp]
    rw [collapse_expand]; rfl
  · unfold GoMap.WF at hm ⊢; simpa [List.map_map, Function.comp_def] using hm

example : Forbidden.collapse (Forbidden.expand ⟨c!"x", [⟨⟨c!"a", .in_⟩, .none⟩], ⟨⟨c!"b", .out⟩, .int 1⟩⟩ c!"t") =
    some (.ok ⟨[], [⟨⟨c!"a", .in_⟩, .none⟩], ⟨⟨c!"b", .out⟩, .int 1⟩⟩) := by decide +kernel

/-! ### C20 -/

/-- The fuzz test's round-trip holds exactly when no trace carries a name.  Partial: the claim for every list of traces is
false (next theorem). -/
theorem C20_fuzz_roundtrip_iff_unnamed_partial (traces : List Forbidden) (m : GoMap Str Forbidden)
    (h : Forbidden.nameAll traces = some m) :
    Forbidden.collapseAll (Forbidden.expandAll m) = .ok m ↔ ∀ t ∈ traces, t.name = [] := by
  obtain ⟨names, h1, h2, h3, _, _⟩ := nameAll_spec traces
  rw [h] at h2; cases h2
  have hwf : GoMap.WF (names.zip traces) := by
    unfold GoMap.WF; rw [List.map_fst_zip (by omega)]; exact h3
  rw [C19_collapseAll_expandAll _ hwf, Except.ok.injEq]
  have e : ∀ (l : List (Str × Forbidden)), l.map (fun kt => (kt.1, ({ kt.2 with name := [] } : Forbidden))) = l ↔
      ∀ kt ∈ l, kt.2.name = [] := by
    intro l
    induction l with
    | nil => simp
    | cons kt l ih =>
      obtain ⟨k, ⟨n, p, f⟩⟩ := kt
      simp only [List.map_cons, List.cons.injEq, ih, List.mem_cons, forall_eq_or_imp, Prod.mk.injEq, Forbidden.mk.injEq,
        true_and, and_true]
      constructor
      · rintro ⟨h1, h2⟩; exact ⟨h1.symm, h2⟩
      · rintro ⟨h1, h2⟩; exact ⟨h1.symm, h2⟩
  rw [e]
  constructor
  · intro hz t ht
    have : t ∈ (names.zip traces).map (·.2) := by rw [List.map_snd_zip (by omega)]; exact ht
    obtain ⟨kt, hkt, rfl⟩ := List.mem_map.1 this
    exact hz kt hkt
  · intro hz kt hkt
    exact hz _ (List.of_mem_zip hkt).2

/-- The claim as stated is false: a named trace comes back without its name. -/
theorem C20_named_trace_loses_name : ∃ traces m, Forbidden.read c!"foo: a.in" = some (.ok traces) ∧
    Forbidden.nameAll traces = some m ∧ Forbidden.collapseAll (Forbidden.expandAll m) ≠ .ok m := by
  refine ⟨[⟨c!"foo", [], ⟨⟨c!"a", .in_⟩, .none⟩⟩], [(c!"foo", ⟨c!"foo", [], ⟨⟨c!"a", .in_⟩, .none⟩⟩)],
    by decide +kernel, by decide +kernel, ?_⟩
  intro hc
  have hn : Forbidden.nameAll [⟨c!"foo", [], ⟨⟨c!"a", .in_⟩, .none⟩⟩] =
      some [(c!"foo", ⟨c!"foo", [], ⟨⟨c!"a", .in_⟩, .none⟩⟩)] := by decide +kernel
  have := (C20_fuzz_roundtrip_iff_unnamed_partial _ _ hn).1 hc _ (List.mem_singleton.2 rfl)
  simp at this

/-! ### C21 -/

/-- What Collapse accepts: exactly the trees with a proper root and one non-forking branch of proper nodes below it; it
gathers the inconclusive events in order and the last passing event. -/
theorem C21_collapse_ok_iff (n : Node) (t : Forbidden) :
    Forbidden.collapse n = some (.ok t) ↔
      RootOK n ∧ ∃ c l, n.next = [c] ∧ Spine c l ∧ (∀ p m, nodeAt c p = some m → NodeOK m) ∧
        t.name = [] ∧ t.pre = l.filterMap (fun oe => if oe.1 = oInc then oe.2 else none) ∧
        t.forbid = ((l.filterMap (fun oe => if oe.1 = oPass then oe.2 else none)).getLast?).getD Event.zero := by
  have hg : ∀ (c : Node) (l : List (Outcome × Option Event)) (f : Forbidden), Spine c l → (∀ p m, nodeAt c p = some m → NodeOK m) →
      gather f l = ⟨f.name, f.pre ++ l.filterMap (fun oe => if oe.1 = oInc then oe.2 else none),
        ((l.filterMap (fun oe => if oe.1 = oPass then oe.2 else none)).getLast?).getD f.forbid⟩ := by
    intro c l f hs
    induction hs generalizing f with
    | @leaf n h =>
      intro hok
      obtain ⟨_, h | ⟨_, _, ⟨c, hc⟩⟩ | ⟨_, _, hne⟩⟩ := hok [] n rfl
      · simp [gather, h.1, oFail, oInc, oPass]
      · rw [h] at hc; cases hc
      · exact absurd h hne
    | @cons n c l h hc ih =>
      intro hok
      have hok' : ∀ p m, nodeAt c p = some m → NodeOK m := fun p m hm => hok (0 :: p) m (by simp [nodeAt, h, hm])
      obtain ⟨_, h' | ⟨ho, ⟨e, he⟩, _⟩ | ⟨ho, ⟨e, he⟩, _⟩⟩ := hok [] n rfl
      · rw [h'.2.2] at h; cases h
      · simp only [gather, ho, he]
        rw [if_neg (by decide), if_pos trivial, ih _ hok']
        simp [oFail, oInc, oPass, List.getLast?_cons]
      · simp only [gather, ho, he]
        rw [if_neg (by decide), if_neg (by decide), ih _ hok']
        simp [oFail, oInc, oPass]
  unfold Forbidden.collapse
  cases hr : Validate.root n with
  | error e =>
    simp only [Option.some.injEq, reduceCtorEq, false_iff, not_and]
    intro h; rw [(rootOK_iff n).2 h] at hr; cases hr
  | ok u =>
    cases u
    simp only [collapseLoop_ok_iff _ _ _ _ (Nat.le_refl _), (rootOK_iff n).1 hr, true_and]
    obtain ⟨tn, tp, tf⟩ := t
    constructor
    · rintro ⟨c, l, h1, h2, h3, h4⟩
      rw [hg c l _ h2 h3] at h4
      simp only [Forbidden.zero, Forbidden.mk.injEq, List.nil_append] at h4
      exact ⟨c, l, h1, h2, h3, h4.1, h4.2.1, h4.2.2⟩
    · rintro ⟨c, l, h1, h2, h3, h4, h5, h6⟩
      refine ⟨c, l, h1, h2, h3, ?_⟩
      rw [hg c l _ h2 h3]
      simp only at h4 h5 h6
      simp [Forbidden.zero, h4, h5, h6]

theorem sameShape_branch {c : Node} {l : List (Outcome × Option Event)} (h : Spine c l) (name : Str) :
    ∃ b, branch name l = [b] ∧ SameShape c b := by
  induction h with
  | @leaf n h =>
    obtain ⟨i, ts, o, e, ns⟩ := n
    simp only at h; subst h
    exact ⟨_, rfl, .mk rfl (by intro k h1; simp at h1)⟩
  | @cons n c l h hc ih =>
    obtain ⟨b, hb, hsame⟩ := ih
    obtain ⟨i, ts, o, e, ns⟩ := n
    simp only at h; subst h
    refine ⟨_, rfl, .mk (by simp [hb]) ?_⟩
    intro k h1 h2
    simp at h1
    subst h1
    simp only [hb]
    exact hsame

/-- Collapse never panics and always ends. -/
theorem C21_collapse_total (n : Node) : ∃ r, Forbidden.collapse n = some r ∧ r ≠ .error .panic := by
  unfold Forbidden.collapse
  cases hr : Validate.root n with
  | error e =>
    refine ⟨_, rfl, ?_⟩
    rintro h; cases h
    unfold Validate.root throwErr at hr
    repeat' split at hr
    all_goals simp at hr
  | ok u => cases u; exact collapseLoop_total _ _ _ (Nat.le_refl _)

/-- If Collapse succeeds, and along the branch the passing node comes once, right before the failing leaf, then expanding
the result gives the tree back up to tags and IDs.  Partial: without the extra condition this is false (below). -/
theorem C21_collapse_inverse_partial (n : Node) (t : Forbidden) (name : Str) (h : Forbidden.collapse n = some (.ok t))
    (c : Node) (es : List (Option Event)) (e : Option Event) (hc : n.next = [c])
    (hshape : Spine c (es.map (fun e => (oInc, e)) ++ [(oPass, e), (oFail, none)])) :
    SameShape n (t.expand name) := by
  obtain ⟨hroot, c', l, h1, h2, h3, h4, h5, h6⟩ := (C21_collapse_ok_iff n t).1 h
  rw [hc] at h1; cases h1
  have huniq : ∀ {c : Node} {l l' : List (Outcome × Option Event)}, Spine c l → Spine c l' → l = l' := by
    intro c l l' a
    induction a generalizing l' with
    | leaf ha =>
      intro b
      cases b with
      | leaf hb => rfl
      | cons hb _ => rw [ha] at hb; cases hb
    | cons ha hca ih =>
      intro b
      cases b with
      | leaf hb => rw [ha] at hb; cases hb
      | cons hb hcb => rw [ha] at hb; cases hb; rw [ih hcb]
  have hl := huniq h2 hshape
  subst hl
  -- every inner node has an event
  have hev : ∀ oe ∈ es.map (fun e => (oInc, e)) ++ [(oPass, e), (oFail, none)], oe.1 ≠ oFail → ∃ x, oe.2 = some x := by
    have gen : ∀ {c : Node} {l : List (Outcome × Option Event)}, Spine c l → (∀ p m, nodeAt c p = some m → NodeOK m) →
        ∀ oe ∈ l, oe.1 ≠ oFail → ∃ x, oe.2 = some x := by
      intro c l hs
      have node : ∀ n : Node, NodeOK n → n.outcome ≠ oFail → ∃ x, n.event = some x := by
        rintro n ⟨_, h | h | h⟩ hne
        · exact absurd h.1 hne
        · exact h.2.1
        · exact h.2.1
      induction hs with
      | @leaf n h =>
        intro hok oe hoe hne
        simp at hoe; subst hoe
        exact node n (hok [] n rfl) hne
      | @cons n c l h hc ih =>
        intro hok oe hoe hne
        rw [List.mem_cons] at hoe
        rcases hoe with rfl | hoe
        · exact node n (hok [] n rfl) hne
        · exact ih (fun p m hm => hok (0 :: p) m (by simp [nodeAt, h, hm])) oe hoe hne
    exact gen h2 h3
  have hspine : es.map (fun e => (oInc, e)) ++ [(oPass, e), (oFail, none)] = spineOf t := by
    unfold spineOf
    have he : ∃ x, e = some x := hev (oPass, e) (by simp) (show oPass ≠ oFail by decide)
    obtain ⟨x, rfl⟩ := he
    have hes : es.map (fun e => (oInc, e)) = t.pre.map (fun e => (oInc, some e)) := by
      rw [h5]
      have : ∀ es : List (Option Event), (∀ e ∈ es, ∃ x, e = some x) →
          es.map (fun e => (oInc, e)) =
            ((es.map (fun e => (oInc, e)) ++ [(oPass, some x), (oFail, none)]).filterMap
              (fun oe => if oe.1 = oInc then oe.2 else none)).map (fun e => (oInc, some e)) := by
        intro es
        induction es with
        | nil => intro _; simp [oPass, oFail, oInc]
        | cons e es ih =>
          intro h
          obtain ⟨y, rfl⟩ := h e (by simp)
          simp only [List.map_cons, List.cons_append, List.filterMap_cons, if_true]
          rw [← ih fun e he => h e (by simp [he])]
      refine this es ?_
      intro e he
      exact hev (oInc, e) (List.mem_append_left _ (List.mem_map.2 ⟨e, he, rfl⟩)) (show oInc ≠ oFail by decide)
    have hf : t.forbid = x := by
      rw [h6, List.filterMap_append]
      simp [oPass, oFail]
    rw [hes, hf]
  rw [expand_eq, ← hspine]
  obtain ⟨b, hb, hsame⟩ := sameShape_branch h2 name
  obtain ⟨i, ts, o, ev, ns⟩ := n
  obtain ⟨r1, r2, r3⟩ := hroot
  simp only at r1 r2 hc
  subst r1; subst r2; subst hc
  refine .mk (by simp [hb]) ?_
  intro k k1 k2
  simp at k1
  subst k1
  simp only [hb]
  exact hsame

/-- The unconditional claim is false: a tree without a passing node collapses, to a trace with an empty forbidden event. -/
theorem C21_collapse_accepts_more : ∃ n t, Forbidden.collapse n = some (.ok t) ∧ ∀ name, ¬ SameShape n (t.expand name) := by
  refine ⟨⟨[], [c!"t"], .unset, none, [⟨[], [c!"t"], .inc, some ⟨⟨c!"a", .in_⟩, .none⟩, [⟨[], [c!"t"], .fail, none, []⟩]⟩]⟩,
    ⟨[], [⟨⟨c!"a", .in_⟩, .none⟩], Event.zero⟩, rfl, ?_⟩
  intro name h
  cases h with
  | mk h hs =>
    have h1 := hs 0 (by decide) (Nat.zero_lt_one)
    cases h1 with
    | mk h' hs' =>
      have h2 := hs' 0 (by decide) (Nat.zero_lt_one)
      cases h2

example : ∃ n t, Forbidden.collapse n = some (.ok t) ∧ ∃ (c : Node) (es : List (Option Event)) (e : Option Event), n.next = [c] ∧
    Spine c (es.map (fun e => (oInc, e)) ++ [(oPass, e), (oFail, none)]) :=
  ⟨Forbidden.expand ⟨[], [Event.zero], Event.zero⟩ c!"t", _, collapse_expand _ _, _, [some Event.zero], some Event.zero, rfl,
    .cons rfl (.cons rfl (.leaf rfl))⟩

/-! ### C42 -/

theorem failures_eq (tests : GoMap Str Forbidden) (after : Trace) :
    Factorise.failures tests after =
      (tests.filter (fun kt => decide (kt.2.pre = after))).map (fun kt => ⟨kt.1, kt.2.forbid⟩) := by
  unfold Factorise.failures
  have key : ∀ (tests : GoMap Str Forbidden) (acc : List Factorise.Failure),
      tests.foldl (fun fs kt => if kt.2.pre.equals after then fs ++ [⟨kt.1, kt.2.forbid⟩] else fs) acc =
      acc ++ (tests.filter (fun kt => decide (kt.2.pre = after))).map (fun kt => ⟨kt.1, kt.2.forbid⟩) := by
    intro tests
    induction tests with
    | nil => simp
    | cons kt tests ih =>
      intro acc
      rw [List.foldl_cons, ih]
      by_cases h : kt.2.pre = after
      · have : Trace.equals kt.2.pre after = true := (C09_trace_equals _ _).2 h
        rw [if_pos this]
        simp [h]
      · have : Trace.equals kt.2.pre after = false := by
          by_contra hc
          exact h ((C09_trace_equals _ _).1 (by simpa using hc))
        simp [this, h]
  simpa using key tests []

/-- Failures lists exactly the tests whose prefix is the given trace, each once, with its forbidden event. -/
theorem C42_failures (tests : GoMap Str Forbidden) (hwf : GoMap.WF tests) (after : Trace) :
    (∀ name e, ⟨name, e⟩ ∈ Factorise.failures tests after ↔
      ∃ t, tests.get? name = some t ∧ t.pre = after ∧ t.forbid = e) ∧
    ((Factorise.failures tests after).map (·.test)).Nodup := by
  rw [failures_eq]
  constructor
  · intro name e
    simp only [List.mem_map, List.mem_filter, decide_eq_true_eq, Factorise.Failure.mk.injEq, Prod.exists]
    constructor
    · rintro ⟨k, t, ⟨h1, h2⟩, rfl, rfl⟩
      exact ⟨t, GoMap.get?_of_mem hwf h1, h2, rfl⟩
    · rintro ⟨t, h1, h2, h3⟩
      exact ⟨name, t, ⟨GoMap.mem_of_get? h1, h2⟩, rfl, h3⟩
  · rw [List.map_map]
    have : ((tests.filter (fun kt => decide (kt.2.pre = after))).map (·.1)).Sublist (tests.map (·.1)) :=
      List.filter_sublist.map _
    exact this.nodup hwf

/-- The list is the same up to order in whatever order the map is visited. -/
theorem C42_failures_order (tests tests' : GoMap Str Forbidden) (h : tests.Perm tests') (after : Trace) :
    (Factorise.failures tests after).Perm (Factorise.failures tests' after) := by
  rw [failures_eq, failures_eq]
  exact (h.filter _).map _

theorem spineNodes_eq (tests : GoMap Str Forbidden) (after : Trace) :
    Factorise.spineNodes tests after =
      ((Factorise.failures tests after).filter (fun f => f.event.channel.isIn)).map
        (fun f => Node.inc (Factorise.lastEvent after) [f.node]) ++
      [Node.inc (Factorise.lastEvent after)
        (((Factorise.failures tests after).filter (fun f => !f.event.channel.isIn)).map (fun f => f.node))] := by
  unfold Factorise.spineNodes
  simp only
  generalize Factorise.lastEvent after = last
  have key : ∀ (fs : List Factorise.Failure) (a b : List Node),
      fs.foldl (fun (acc : List Node × List Node) f =>
        if f.event.channel.isIn then (acc.1 ++ [Node.inc last [f.node]], acc.2) else (acc.1, acc.2 ++ [f.node])) (a, b) =
      (a ++ (fs.filter (fun f => f.event.channel.isIn)).map (fun f => Node.inc last [f.node]),
       b ++ (fs.filter (fun f => !f.event.channel.isIn)).map (fun f => f.node)) := by
    intro fs
    induction fs with
    | nil => simp
    | cons f fs ih =>
      intro a b
      rw [List.foldl_cons]
      by_cases h : f.event.channel.isIn = true
      · simp only [h, if_true]; rw [ih]; simp [h]
      · simp only [h]; rw [ih]; simp [h]
  have := key (Factorise.failures tests after) [] []
  simp only [List.nil_append] at this
  rw [this]

/-- SpineNodes: every spine node is inconclusive with the last event of the trace; the last spine carries all non-input
failures and only those, each other spine exactly one input failure; together they carry every failure exactly once. -/
theorem C42_spineNodes (tests : GoMap Str Forbidden) (after : Trace) :
    ∃ ins outs : List Factorise.Failure,
      (ins ++ outs).Perm (Factorise.failures tests after) ∧
      (∀ f ∈ ins, f.event.channel.kind = ⟨0⟩) ∧ (∀ f ∈ outs, f.event.channel.kind ≠ ⟨0⟩) ∧
      Factorise.spineNodes tests after =
        (ins.map (fun f => [f]) ++ [outs]).map (fun fs =>
          { id := [], tests := [], outcome := oInc, event := some (after.getLast?.getD Event.zero),
            next := fs.map (fun f =>
              { id := [], tests := [f.test], outcome := oPass, event := some f.event,
                next := [{ id := [], tests := [f.test], outcome := oFail, event := none, next := [] }] }) }) := by
  refine ⟨(Factorise.failures tests after).filter (fun f => f.event.channel.isIn),
    (Factorise.failures tests after).filter (fun f => !f.event.channel.isIn), ?_, ?_, ?_, ?_⟩
  · exact List.filter_append_perm _ _
  · intro f hf
    have := (List.mem_filter.1 hf).2
    exact of_decide_eq_true this
  · intro f hf
    have := (List.mem_filter.1 hf).2
    simp only [Channel.isIn, Kind.in_, Bool.not_eq_true'] at this
    exact of_decide_eq_false this
  · rw [spineNodes_eq]
    have hl : Factorise.lastEvent after = after.getLast?.getD Event.zero := by
      unfold Factorise.lastEvent
      cases after.getLast? <;> rfl
    rw [hl, List.map_append, List.map_map]
    rfl

example : (Factorise.failures [(c!"t", ⟨[], [], ⟨⟨c!"a", .in_⟩, .none⟩⟩), (c!"u", ⟨[], [], ⟨⟨c!"b", .out⟩, .none⟩⟩),
    (c!"v", ⟨[], [Event.zero], ⟨⟨c!"b", .out⟩, .none⟩⟩)] []).map (·.test) = [c!"t", c!"u"] := by decide

end Rtcg
