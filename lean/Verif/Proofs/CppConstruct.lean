import Verif.Proofs.CppCallbacks

/-
Running the generated program: making a state machine.
-/

namespace Rtcg

namespace Spec

namespace Cpp

namespace Sem

open Templates Rtcg.Cpp Tmpl Tree

section

variable {S : Src} {L : Lib} {fuel n : Nat} {st : St}

/-- Some fields of `p` got the value `v`, and nothing else changed -/
structure Filled (p : List Str) (xs : List Str) (v : Val) (st st' : St) : Prop where
  loc : st'.loc = st.loc
  eff : st'.eff = st.eff
  input : st'.input = st.input
  events : st'.events = st.events
  here : ∀ x ∈ xs, st'.mem (p ++ [x]) = some v
  there : ∀ q, (∀ x ∈ xs, q ≠ p ++ [x]) → st'.mem q = st.mem q

theorem initFields_const {C : Ctx} {p : List Str} {v : Val} (fs : List (CType × Str × Option Expr))
    (h : ∀ f ∈ fs, ∀ st, initField C p f st = .ok () { st with mem := upd st.mem (p ++ [f.2.1]) v }) :
    ∃ st', initFields C p fs st = .ok () st' ∧ Filled p (fs.map (·.2.1)) v st st' := by
  induction fs generalizing st with
  | nil => exact ⟨st, rfl, rfl, rfl, rfl, rfl, by simp, fun _ _ => rfl⟩
  | cons f fs ih =>
    obtain ⟨st', h1, h2⟩ := ih (fun f hf => h f (List.mem_cons_of_mem _ hf)) (st := { st with mem := upd st.mem (p ++ [f.2.1]) v })
    refine ⟨st', ?_, h2.loc, h2.eff, h2.input, h2.events, ?_, ?_⟩
    · rw [initFields, bind_eq, bind_ok (h f (List.mem_cons_self ..) st), h1]
    · intro x hx
      by_cases hxs : x ∈ fs.map (·.2.1)
      · exact h2.here x hxs
      · rw [h2.there _ (by
          intro y hy e
          simp only [List.append_cancel_left_eq, List.cons.injEq, and_true] at e
          exact hxs (e ▸ hy))]
        rw [List.map_cons, List.mem_cons] at hx
        rcases hx with rfl | hx
        · exact upd_same ..
        · exact absurd hx hxs
    · intro q hq
      rw [List.map_cons] at hq
      rw [h2.there q (fun x hx => hq x (List.mem_cons_of_mem _ hx))]
      exact upd_other (hq _ (List.mem_cons_self ..))

theorem initField_value {C : Ctx} {p : List Str} {T : CType} {x : Str} {e : Expr} {v : Val} (h : evalE C e st = .ok v st) :
    initField C p (T, x, some e) st = .ok () { st with mem := upd st.mem (p ++ [x]) v } := by
  unfold initField
  simp only
  rw [bind_eq, bind_ok h]
  rfl

theorem framed_ok {α : Type} {loc : List (Str × CType × Val)} {m : M α} {a : α} {st' : St} (h : m { st with loc := loc } = .ok a st') :
    framed loc m st = .ok a { st' with loc := st.loc } := by
  unfold framed
  rw [h]

theorem initFields_append {C : Ctx} {p : List Str} {fs gs : List (CType × Str × Option Expr)} {st' : St} (h : initFields C p fs st = .ok () st') :
    initFields C p (fs ++ gs) st = initFields C p gs st' := by
  induction fs generalizing st with
  | nil => cases h; rfl
  | cons f fs ih =>
    rw [initFields, bind_eq] at h
    rw [List.cons_append, initFields, bind_eq]
    unfold M.bind at h ⊢
    cases hf : initField C p f st with
    | wait => rw [hf] at h; cases h
    | wrong => rw [hf] at h; cases h
    | ok a st1 =>
      rw [hf] at h
      exact ih h

/-- The fields of the base of a class -/
def baseFields (S : Src) (L : Lib) (fuel n : Nat) (cls p : List Str) : M Unit :=
  match S.prog.cls cls with
  | some (some b) => initFields (cx S L fuel n (b ++ [c!""]) (some p)) p (S.prog.ownFields b)
  | _ => M.ret ()

/-- The constructor, if there is one -/
def construct (S : Src) (L : Lib) (fuel n : Nat) (cls p : List Str) (args : List Val) : M Unit :=
  if (S.prog.fn (cls ++ cls.getLast?.toList)).isSome then
    M.bind (callFn S.prog L fuel n (cls ++ cls.getLast?.toList) (some p) args) (fun _ => M.ret ())
  else if args = [] then M.ret () else M.fail

theorem makeObj_eq (cls p : List Str) (args : List Val) : makeObj S.prog L fuel (n + 1) cls p args =
    M.bind (framed [] (baseFields S L fuel n cls p)) (fun _ =>
      M.bind (framed [] (initFields (cx S L fuel n (cls ++ [c!""]) (some p)) p (S.prog.ownFields cls))) (fun _ =>
        construct S L fuel n cls p args)) := by
  rw [makeObj]
  rfl

theorem makeObj_run {cls p : List Str} {args : List Val} {st1 st2 st3 : St} (h1 : baseFields S L fuel n cls p { st with loc := [] } = .ok () st1)
    (h2 : initFields (cx S L fuel n (cls ++ [c!""]) (some p)) p (S.prog.ownFields cls) { st1 with loc := [] } = .ok () st2)
    (h3 : construct S L fuel n cls p args { st2 with loc := st.loc } = .ok () st3) :
    makeObj S.prog L fuel (n + 1) cls p args st = .ok () st3 := by
  rw [makeObj_eq, bind_ok (framed_ok h1), bind_ok (framed_ok (st := { st1 with loc := st.loc }) h2)]
  exact h3

/-- A new verdict: no outcome is set -/
theorem make_verdict (hS : Setup S L) (p : List Str) :
    ∃ st', makeObj S.prog L fuel (n + 1) [c!"Verdict"] p [] st = .ok () st' ∧
      Filled p (S.tests.map (· ++ c!"_")) (outcomeVal Outcome.unset) st st' := by
  let C := cx S L fuel n [c!"Verdict", c!""] (some p)
  have hcls : S.prog.cls [c!"Verdict"] = some none := by
    rw [S.cls_prog, if_neg (by decide), if_pos rfl]
  have hctor : S.prog.fn [c!"Verdict", c!"Verdict"] = none := by
    have h := hS.names.verdict
    unfold verdictMembers at h
    rw [S.fn_verdict, fn_eq, Option.map_eq_none_iff, List.find?_eq_none, Src.fns_verdict]
    intro f hf he
    simp only [decide_eq_true_eq] at he
    simp only [List.cons_append, List.nil_append, List.nodup_cons, List.mem_append, List.mem_cons, not_or] at h
    rcases List.mem_cons.1 hf with rfl | hf
    · simp at he
    · obtain ⟨t, ht, rfl⟩ := List.mem_map.1 hf
      simp only [List.cons.injEq, and_true, true_and] at he
      subst he
      exact h.1.2.1 ht
  obtain ⟨st1, r1, f1⟩ := initFields_const (C := C) (p := p) (v := outcomeVal Outcome.unset) (st := { st with loc := [] }) S.verdictFieldList (by
    intro f hf st
    obtain ⟨t, ht, rfl⟩ := List.mem_map.1 hf
    exact initField_value (eval_outcome (shallow_verdict _) Outcome.unset))
  have hm : S.verdictFieldList.map (·.2.1) = S.tests.map (· ++ c!"_") := by
    unfold Src.verdictFieldList
    rw [List.map_map]
    rfl
  rw [hm] at f1
  refine ⟨{ st1 with loc := st.loc }, ?_, rfl, f1.eff, f1.input, f1.events, f1.here, f1.there⟩
  refine makeObj_run (st1 := { st with loc := [] }) (st2 := st1) ?_ ?_ ?_
  · unfold baseFields
    simp only [hcls]
    rfl
  · rw [S.ownFields_verdict]
    exact r1
  · have e : construct S L fuel n [c!"Verdict"] p [] = M.ret () := by
      unfold construct
      show (if (S.prog.fn [c!"Verdict", c!"Verdict"]).isSome = true then _ else _ : M Unit) = _
      rw [hctor]
      rfl
    rw [e]
    rfl

/-! ### publishers -/

def pubField (U : Unicode) (a : AggregateSet) : Str := publisherName U a.channel ++ c!"_"

theorem pub_nodup (hS : Setup S L) (hv : S.v = .ros) : (S.tc.in_.map (pubField S.U)).Nodup := by
  have h := hS.names.members
  have e : stmFields S.U S.v (TransitionContext.make S.m) = S.tc.in_.map (pubField S.U) := by
    unfold stmFields
    rw [if_pos hv]
    rfl
  unfold classMembers at h
  simp only [e] at h
  rw [List.nodup_iff_count_le_one] at h ⊢
  intro x
  have hx := h x
  simp only [List.count_append, List.count_cons] at hx
  omega

theorem pubField_last (U : Unicode) (a : AggregateSet) : (pubField U a).getLast? = some '_' := by
  unfold pubField
  rw [List.getLast?_append]
  rfl

theorem pubName_last (U : Unicode) (c : Channel) : (publisherName U c).getLast? = some 'b' := by
  unfold publisherName
  rw [List.getLast?_append]
  rfl

/-- Parameters and arguments, one by one -/
theorem bind_map {α : Type} (l : List α) (T : CType) (x : α → Str) (v : α → Val) :
    bindParams (l.map (fun a => (T, x a))) (l.map v) = some (l.map (fun a => (x a, T, v a))) := by
  induction l with
  | nil => rfl
  | cons a l ih =>
    rw [List.map_cons, List.map_cons, bindParams, ih]
    rfl

theorem find_named {α : Type} (l : List α) (T : CType) (x : α → Str) (v : α → Val) (hl : (l.map x).Nodup) {a : α} (ha : a ∈ l) :
    (l.map (fun a => (x a, T, v a))).find? (fun l => l.1 = x a) = some (x a, T, v a) := by
  induction l with
  | nil => cases ha
  | cons b l ih =>
    rw [List.map_cons, List.nodup_cons] at hl
    rw [List.map_cons, List.find?_cons]
    rcases List.mem_cons.1 ha with rfl | ha
    · simp
    · have hne : x b ≠ x a := fun e => hl.1 (e ▸ List.mem_map.2 ⟨a, ha, rfl⟩)
      simp only [decide_eq_false hne]
      exact ih hl.2 ha

theorem exec_installs {p : List Str} (hv : S.v = .ros) (l : List AggregateSet) (hl : ∀ a ∈ l, a ∈ S.tc.in_) (hn : (l.map (pubField S.U)).Nodup)
    (h1 : ∀ a ∈ l, ∃ T, getLocal st (publisherName S.U a.channel) = some (T, publisher L S.U a.channel))
    (h2 : ∀ a, getLocal st (pubField S.U a) = none) :
    ∃ st', execSs (cx S L fuel n [SM, SM] (some p))
        (stmtsOf (l.map (fun a => .expr (.assign (nm (publisherName S.U a.channel ++ c!"_")) (nm (publisherName S.U a.channel)))))) st = .ok .next st' ∧
      Steps S.v st st' [] false ∧ (∀ a ∈ l, st'.mem (p ++ [pubField S.U a]) = some (publisher L S.U a.channel)) ∧
      ∀ q, (∀ a ∈ l, q ≠ p ++ [pubField S.U a]) → st'.mem q = st.mem q := by
  induction l generalizing st with
  | nil => exact ⟨st, rfl, Steps.refl, by simp, fun _ _ => rfl⟩
  | cons a l ih =>
    obtain ⟨T, hT⟩ := h1 a (List.mem_cons_self ..)
    have e1 : evalE (cx S L fuel n [SM, SM] (some p)) (.assign (nm (publisherName S.U a.channel ++ c!"_")) (nm (publisherName S.U a.channel))) st =
        .ok (publisher L S.U a.channel) { st with mem := upd st.mem (p ++ [pubField S.U a]) (publisher L S.U a.channel) } :=
      assign_field (nm_local hT) (h2 a) (pub_any (hl a (List.mem_cons_self ..)) hv)
    let st1 : St := { st with mem := upd st.mem (p ++ [pubField S.U a]) (publisher L S.U a.channel) }
    rw [List.map_cons, List.nodup_cons] at hn
    obtain ⟨st2, r2, s2, m2, o2⟩ := ih (fun a ha => hl a (List.mem_cons_of_mem _ ha)) hn.2 (st := st1)
      (fun a ha => h1 a (List.mem_cons_of_mem _ ha)) h2
    have s1 : Steps S.v st st1 [] false := Steps.refl.congr rfl rfl rfl rfl rfl rfl rfl
    refine ⟨st2, (execSs_cons (execS_expr e1)).trans r2, s1.trans s2, ?_, ?_⟩
    · intro b hb
      rcases List.mem_cons.1 hb with rfl | hb
      · rw [o2]
        · exact upd_same ..
        · intro a ha e
          simp only [List.append_cancel_left_eq, List.cons.injEq, and_true] at e
          exact hn.1 (e ▸ List.mem_map.2 ⟨a, ha, rfl⟩)
      · exact m2 b hb
    · intro q hq
      rw [o2 q (fun a ha => hq a (List.mem_cons_of_mem _ ha))]
      exact upd_other (hq a (List.mem_cons_self ..))

/-! ### the fields of a new machine -/

/-- The configuration before the constructor runs -/
def fresh (m : Stm) : Harness.Config := ⟨Harness.initial m, .waitStart, (GoSet.values m.tests).map (fun t => (t, Outcome.unset)), []⟩

theorem get_unset (l : List Str) {t : Str} (h : t ∈ l) : GoMap.get? (l.map (fun t => (t, Outcome.unset))) t = some Outcome.unset := by
  induction l with
  | nil => cases h
  | cons x l ih =>
    rw [List.map_cons, GoMap.get?]
    by_cases e : x = t
    · simp [e]
    · simp only [e, if_false]
      rcases List.mem_cons.1 h with rfl | h
      · exact absurd rfl e
      · exact ih h

theorem classOf_none {q T : List Str} (hq : (∃ f, q = [SM, f]) ∨ ∃ f, q = [f]) {this : Option (List Str)} (hT : ∃ a b, T = [a, b] ∧ a ≠ c!"rtcg" ∧ a ≠ SM) :
    (cx S L fuel n q this).classOf T = none := by
  obtain ⟨a, b, rfl, h1, h2⟩ := hT
  have hc : ∀ q, q ≠ [c!"rtcg", c!"TestCase"] → q ≠ [c!"Verdict"] → q ≠ [SM] → S.prog.cls q = none := by
    intro q h1 h2 h3
    rw [S.cls_prog, if_neg h1.symm, if_neg h2.symm, if_neg h3.symm]
  have e1 : S.prog.cls [SM, a, b] = none := hc _ (by simp) (by simp) (by simp)
  have e2 : S.prog.cls [a, b] = none := hc _ (by simp [h1]) (by simp) (by simp)
  rcases hq with ⟨f, rfl⟩ | ⟨f, rfl⟩
  · show ([[SM, a, b], [a, b]] : List (List Str)).find? (fun c => (S.prog.cls c).isSome) = none
    simp [e1, e2]
  · show ([[a, b]] : List (List Str)).find? (fun c => (S.prog.cls c).isSome) = none
    simp [e2]

theorem init_fields (hS : Setup S L) (p : List Str) :
    ∃ st1 st2, baseFields S L fuel (n + 1) [SM] p { st with loc := [] } = .ok () st1 ∧
      initFields (cx S L fuel (n + 1) [SM, c!""] (some p)) p (S.prog.ownFields [SM]) { st1 with loc := [] } = .ok () st2 ∧
      Core S p (fresh S.m) st2 ∧ Steps S.v st { st2 with loc := st.loc } [] false := by
  obtain ⟨s, hs, _, hfirst⟩ := first_state hS
  -- the base
  have hb : ∀ st, evalE (cx S L fuel (n + 1) [c!"rtcg", c!"TestCase", c!""] (some p)) (.name [c!"Status", c!"WAIT_START"]) st =
      .ok (statusVal .waitStart) st := by
    intro st
    refine name_global ?_ (by simp)
    rw [global_eq]
    show (match ([[c!"rtcg", c!"TestCase", c!"Status", c!"WAIT_START"], [c!"rtcg", c!"Status", c!"WAIT_START"], [c!"Status", c!"WAIT_START"]] :
      List (List Str)).findSome? (resolve S) with
      | some v => v
      | none => _) = _
    simp only [List.findSome?_cons, resolve_long, resolve_status (show c!"WAIT_START" ∈ statusNames by decide)]
    rfl
  let st0 : St := { st with loc := [] }
  let st1 : St := { st0 with mem := upd st0.mem (p ++ [c!"status_"]) (statusVal .waitStart) }
  have h1 : baseFields S L fuel (n + 1) [SM] p st0 = .ok () st1 := by
    unfold baseFields
    rw [S.cls_prog, if_neg (by decide), if_neg (by decide), if_pos rfl]
    simp only [S.ownFields_base]
    show initFields (cx S L fuel (n + 1) [c!"rtcg", c!"TestCase", c!""] (some p)) p
      [(ty [c!"Status"], c!"status_", some (.name [c!"Status", c!"WAIT_START"]))] st0 = _
    rw [initFields, bind_eq, bind_ok (initField_value (hb st0))]
    rfl
  -- the verdict
  let C := cx S L fuel (n + 1) [SM, c!""] (some p)
  obtain ⟨st2, r2, f2⟩ := make_verdict (n := n) (fuel := fuel) (L := L) (st := st1) hS (p ++ [c!"verdict_"])
  let st3 : St := { st2 with mem := upd st2.mem (p ++ [c!"verdict_"]) (.obj (p ++ [c!"verdict_"]) [c!"Verdict"]) }
  have hcv : C.classOf [c!"Verdict"] = some [c!"Verdict"] := by
    show ([[SM, c!"Verdict"], [c!"Verdict"]] : List (List Str)).find? (fun c => (S.prog.cls c).isSome) = _
    have e1 : S.prog.cls [SM, c!"Verdict"] = none := by
      rw [S.cls_prog, if_neg (by decide), if_neg (by decide), if_neg (by decide)]
    have e2 : S.prog.cls [c!"Verdict"] = some none := by
      rw [S.cls_prog, if_neg (by decide), if_pos rfl]
    simp [e1, e2]
  have i2 : initField C p (ty [c!"Verdict"], c!"verdict_", none) st1 = .ok () st3 := by
    unfold initField
    simp only
    show (match C.classOf [c!"Verdict"] with
      | some c => _
      | none => _ : M Unit) st1 = _
    rw [hcv]
    show M.bind (makeObj S.prog L fuel (n + 1) [c!"Verdict"] (p ++ [c!"verdict_"]) []) _ st1 = _
    rw [bind_ok r2]
    rfl
  -- the state
  let st4 : St := { st3 with mem := upd st3.mem (p ++ [c!"state_"]) (stateVal S.U s.id) }
  have i3 : initField C p (ty [c!"State"], c!"state_", some (stateE S.U S.first)) st3 = .ok () st4 := by
    rw [hfirst]
    exact initField_value (eval_state (shallow_sm _) hs)
  -- the publishers
  have hp : ∃ st5, initFields C p (if S.v = Variant.ros then S.tc.in_.map (fun a => (publisherTy, publisherName S.U a.channel ++ c!"_", none)) else []) st4 =
      .ok () st5 ∧ st5.eff = st4.eff ∧ st5.input = st4.input ∧ st5.events = st4.events ∧
      ∀ q, (S.v = .ros → ∀ a ∈ S.tc.in_, q ≠ p ++ [pubField S.U a]) → st5.mem q = st4.mem q := by
    by_cases hv : S.v = Variant.ros
    · rw [if_pos hv]
      obtain ⟨st5, r5, f5⟩ := initFields_const (C := C) (p := p) (v := .lib (L.make [c!"ros", c!"Publisher"])) (st := st4)
        (S.tc.in_.map (fun a => (publisherTy, publisherName S.U a.channel ++ c!"_", none))) (by
          intro f hf st
          obtain ⟨a, _, rfl⟩ := List.mem_map.1 hf
          unfold initField
          simp only
          show (match C.classOf [c!"ros", c!"Publisher"] with
            | some c => _
            | none => _ : M Unit) st = _
          rw [show C.classOf [c!"ros", c!"Publisher"] = none from classOf_none (.inl ⟨_, rfl⟩) ⟨_, _, rfl, by decide, by decide⟩]
          have e : initial C.lib publisherTy = some (.lib (L.make [c!"ros", c!"Publisher"])) := by
            unfold initial
            have hk : L.known publisherTy.name = true := (hS.lib.ros hv).1 _ (by decide)
            show (if publisherTy.ptr ≠ [] then _ else if _ then _ else if _ then _ else if L.known publisherTy.name then _ else _ : Option Val) = _
            rw [if_neg (by decide), if_neg (by decide), if_neg (by decide), if_pos hk]
            rfl
          simp only [e]
          rfl)
      refine ⟨st5, r5, f5.eff, f5.input, f5.events, ?_⟩
      intro q hq
      apply f5.there
      rw [List.map_map]
      intro x hx
      obtain ⟨a, ha, rfl⟩ := List.mem_map.1 hx
      exact hq hv a ha
    · rw [if_neg hv]
      exact ⟨st4, rfl, rfl, rfl, rfl, fun _ _ => rfl⟩
  obtain ⟨st5, r5, e5, n5, v5, m5⟩ := hp
  refine ⟨st1, st5, h1, ?_, ?_, ?_⟩
  · rw [S.ownFields_sm]
    unfold Src.smFieldList
    show initFields C p ((ty [c!"Verdict"], c!"verdict_", none) :: (ty [c!"State"], c!"state_", some (stateE S.U S.first)) :: _) st1 = _
    rw [initFields, bind_eq, bind_ok i2, initFields, bind_eq, bind_ok i3]
    exact r5
  · have hpf : ∀ x, x = c!"status_" ∨ x = c!"state_" ∨ x = c!"verdict_" → st5.mem (p ++ [x]) = st4.mem (p ++ [x]) := by
      intro x hx
      apply m5
      intro hv a ha e
      obtain ⟨h1, h2, h3⟩ := pub_field hS ha hv
      simp only [List.append_cancel_left_eq, List.cons.injEq, and_true] at e
      unfold pubField at e
      rcases hx with rfl | rfl | rfl
      · exact h1 e.symm
      · exact h2 e.symm
      · exact h3 e.symm
    have hne : ∀ x y, p ++ [x] ≠ p ++ [c!"verdict_"] ++ [y] := by
      intro x y h
      have := congrArg List.length h
      simp at this
    refine ⟨?_, ?_, ?_, ?_, ?_⟩
    · rw [hpf _ (.inl rfl)]
      show upd (upd st2.mem _ _) _ _ _ = _
      rw [upd_other (by simp), upd_other (by simp), f2.there _ (fun x _ => hne _ _)]
      exact upd_same ..
    · rw [hpf _ (.inr (.inl rfl))]
      show upd _ _ _ _ = some (stateVal S.U S.first)
      rw [hfirst]
      exact upd_same ..
    · show S.first ∈ _
      rw [hfirst]
      exact List.mem_map.2 ⟨s, hs, rfl⟩
    · rw [hpf _ (.inr (.inr rfl))]
      show upd (upd st2.mem _ _) _ _ _ = _
      rw [upd_other (by simp)]
      exact upd_same ..
    · intro t ht
      refine ⟨Outcome.unset, get_unset _ ht, ?_⟩
      rw [m5]
      · show upd (upd st2.mem _ _) _ _ _ = _
        rw [upd_other (hne _ _).symm, upd_other]
        · exact f2.here _ (List.mem_map.2 ⟨t, ht, rfl⟩)
        · intro h
          have := congrArg List.length h
          simp at this
      · intro _ a _
        exact (hne _ _).symm
  · refine ⟨rfl, ?_, ?_, [], ?_, rfl, rfl⟩
    · rw [show ({ st5 with loc := st.loc } : St).input = st5.input from rfl, n5]
      exact f2.input
    · rw [show ({ st5 with loc := st.loc } : St).events = st5.events from rfl, v5]
      exact f2.events
    · rw [show ({ st5 with loc := st.loc } : St).eff = st5.eff from rfl, e5, List.append_nil]
      exact f2.eff

/-! ### the constructor -/

theorem mem_ctor : (SM, ctorItem S.U S.v S.tc S.first) ∈ S.sm := by
  unfold Src.sm smFns
  simp

def pubArgs (S : Src) (L : Lib) : List Val := if S.v = Variant.ros then S.tc.in_.map (fun a => publisher L S.U a.channel) else []

theorem run_ctor (hS : Setup S L) {p : List Str} (hc : Core S p (fresh S.m) st) :
    ∃ st', callFn S.prog L fuel (n + 4) [SM, SM] (some p) (pubArgs S L) st = .ok .void st' ∧ Core S p (Harness.construct S.m) st' ∧ Pubs S L p st' ∧
      (Harness.construct S.m).sent = [] ∧ Steps S.v st st' [] (decide (S.v = .ros) && !(Harness.construct S.m).status.isRunning) := by
  obtain ⟨s, hs, hhead, hfirst⟩ := first_state hS
  let C := cx S L fuel (n + 3) [SM, SM] (some p)
  let loc : List (Str × CType × Val) := if S.v = Variant.ros then
    S.tc.in_.map (fun a => (publisherName S.U a.channel, publisherTy, publisher L S.U a.channel)) else []
  have hb : bindParams (ctorParams S.U S.v S.tc) (pubArgs S L) = some loc := by
    unfold ctorParams pubArgs
    by_cases hv : S.v = Variant.ros
    · simp only [hv, if_true, loc]
      exact bind_map ..
    · simp only [hv, if_false, loc]
      rfl
  let st0 : St := { st with loc := loc }
  have hc0 : Core S p (fresh S.m) st0 := hc.congr rfl
  have hlast : ∀ x ∈ loc.map (·.1), x.getLast? = some 'b' := by
    intro x hx
    simp only [loc] at hx
    split at hx
    · rw [List.map_map] at hx
      obtain ⟨a, _, rfl⟩ := List.mem_map.1 hx
      exact pubName_last ..
    · cases hx
  have l0 : ∀ x : Str, x.getLast? = some '_' → ∀ st1 : St, st1.loc = loc → getLocal st1 x = none := by
    intro x hx st1 h1
    apply getLocal_none
    rw [h1]
    intro h
    rw [hlast x h] at hx
    cases hx
  -- the first statement
  have h1 : ∃ st1, execS C (if S.tc.firstStateHasIn then .expr (.assign (nm c!"status_") (status c!"WAIT_START")) else enterS S.U S.first) st0 = .ok .next st1 ∧
      Core S p (Harness.construct S.m) st1 ∧ (Harness.construct S.m).sent = [] ∧
      Steps S.v st0 st1 [] (decide (S.v = .ros) && !(Harness.construct S.m).status.isRunning) := by
    by_cases hf : S.tc.firstStateHasIn = true
    · have e : Harness.construct S.m = fresh S.m := by
        unfold Harness.construct
        unfold Src.tc at hf
        rw [if_pos hf]
        rfl
      rw [if_pos hf, e]
      refine ⟨_, execS_expr (assign_field (eval_status (shallow_sm SM) .waitStart) (l0 c!"status_" rfl st0 rfl) (field_any (.inl rfl))), ?_, rfl, ?_⟩
      · exact hc0.status_upd (s := .waitStart) rfl
      · have : (decide (S.v = Variant.ros) && !(fresh S.m).status.isRunning) = false := by
          simp [fresh, Status.isRunning]
        rw [this]
        exact Steps.refl.congr rfl rfl rfl rfl rfl rfl rfl
    · have e : Harness.construct S.m = Harness.enter S.m s.id (fresh S.m) := by
        unfold Harness.construct
        unfold Src.tc at hf
        rw [if_neg hf]
        show Harness.enter S.m S.first _ = _
        rw [hfirst]
        rfl
      have hin : s.hasIn = false := by
        rw [Bool.eq_false_iff]
        intro hin
        apply hf
        unfold Src.tc
        rw [C39_firstStateHasIn]
        refine ⟨s, hhead, ?_⟩
        unfold State.hasIn at hin
        obtain ⟨ts, hts, h⟩ := List.any_eq_true.1 hin
        exact ⟨ts, hts, by simpa [isIn_eq] using h⟩
      rw [if_neg hf, e, hfirst]
      obtain ⟨st1, r1, ⟨c1, _, new, hn, s1⟩, _⟩ := exec_enter (n := n) (fuel := fuel) (f := SM) hS hs hc0 (by rw [hin]; simp)
      have hsent : (Harness.enter S.m s.id (fresh S.m)).sent = [] := by
        unfold Harness.enter
        simp only [find_state hS hs]
        rw [settle_sent]
        unfold sending
        simp only [hin]
        split <;> rfl
      have hnew : new = [] := by
        rw [hsent] at hn
        simpa [fresh] using hn.symm
      refine ⟨st1, r1, c1, hsent, ?_⟩
      rw [hnew] at s1
      simpa [fresh, Status.isRunning] using s1
  obtain ⟨st1, r1, c1, hsent, s1⟩ := h1
  -- the publishers
  have h2 : ∃ st2, execSs C (stmtsOf (installs S.U S.v S.tc)) st1 = .ok .next st2 ∧ Steps S.v st1 st2 [] false ∧
      Pubs S L p st2 ∧ ∀ q, (S.v = .ros → ∀ a ∈ S.tc.in_, q ≠ p ++ [pubField S.U a]) → st2.mem q = st1.mem q := by
    by_cases hv : S.v = Variant.ros
    · have e : installs S.U S.v S.tc =
          S.tc.in_.map (fun a => .expr (.assign (nm (publisherName S.U a.channel ++ c!"_")) (nm (publisherName S.U a.channel)))) := if_pos hv
      rw [e]
      obtain ⟨st2, r2, s2, m2, o2⟩ := exec_installs (L := L) (fuel := fuel) (n := n + 3) (st := st1) (p := p) hv S.tc.in_ (fun _ h => h)
        (pub_nodup hS hv) (by
          intro a ha
          refine ⟨publisherTy, ?_⟩
          unfold getLocal
          rw [s1.loc]
          have e2 : loc = S.tc.in_.map (fun a => (publisherName S.U a.channel, publisherTy, publisher L S.U a.channel)) := if_pos hv
          show Option.map _ (List.find? _ loc) = _
          rw [e2, find_named S.tc.in_ publisherTy (fun a => publisherName S.U a.channel) (fun a => publisher L S.U a.channel) ?_ ha]
          · rfl
          · have := pub_nodup hS hv
            unfold pubField at this
            rw [List.nodup_iff_pairwise_ne, List.pairwise_map] at this ⊢
            exact this.imp (fun {a b} h e => h (by rw [e]))) (fun a => l0 _ (pubField_last S.U a) st1 s1.loc)
      exact ⟨st2, r2, s2, fun _ a ha => m2 a ha, fun q hq => o2 q (hq hv)⟩
    · have e : installs S.U S.v S.tc = [] := if_neg hv
      rw [e]
      exact ⟨st1, rfl, Steps.refl, fun h => absurd h hv, fun _ _ => rfl⟩
  obtain ⟨st2, r2, s2, hP2, o2⟩ := h2
  have c2 : Core S p (Harness.construct S.m) st2 := by
    have hpf : ∀ x, x = c!"status_" ∨ x = c!"state_" ∨ x = c!"verdict_" → st2.mem (p ++ [x]) = st1.mem (p ++ [x]) := by
      intro x hx
      apply o2
      intro hv a ha e
      obtain ⟨h1, h2, h3⟩ := pub_field hS ha hv
      simp only [List.append_cancel_left_eq, List.cons.injEq, and_true] at e
      unfold pubField at e
      rcases hx with rfl | rfl | rfl
      · exact h1 e.symm
      · exact h2 e.symm
      · exact h3 e.symm
    refine ⟨by rw [hpf _ (.inl rfl)]; exact c1.status, by rw [hpf _ (.inr (.inl rfl))]; exact c1.state, c1.known,
      by rw [hpf _ (.inr (.inr rfl))]; exact c1.object, ?_⟩
    intro t ht
    obtain ⟨o, h1, h2⟩ := c1.tests t ht
    refine ⟨o, h1, ?_⟩
    rw [o2]
    · exact h2
    · intro _ a _ h
      have := congrArg List.length h
      simp at this
  have hx : execSs C (bodyOf (ctorItem S.U S.v S.tc S.first)) st0 = .ok .next st2 := by
    unfold ctorItem bodyOf
    exact (execSs_cons r1).trans r2
  refine ⟨_, callFn_run (fn_of hS mem_ctor) hb hx rfl, c2.congr rfl, hP2, hsent, ?_⟩
  have := s1.trans s2
  rw [Bool.or_false] at this
  exact this.congr rfl rfl rfl rfl rfl rfl rfl

/-- A new machine is in the configuration that `construct` says. -/
theorem make_machine (hS : Setup S L) (p : List Str) :
    ∃ st', makeObj S.prog L fuel (n + 5) [SM] p (pubArgs S L) st = .ok () st' ∧ Core S p (Harness.construct S.m) st' ∧ Pubs S L p st' ∧
      (Harness.construct S.m).sent = [] ∧ Steps S.v st st' [] (decide (S.v = .ros) && !(Harness.construct S.m).status.isRunning) := by
  obtain ⟨st1, st2, h1, h2, c2, s2⟩ := init_fields (n := n + 3) (fuel := fuel) (L := L) (st := st) hS p
  obtain ⟨st3, r3, c3, p3, e3, s3⟩ := run_ctor (n := n) (fuel := fuel) (st := { st2 with loc := st.loc }) hS (c2.congr rfl)
  refine ⟨st3, makeObj_run h1 h2 ?_, c3, p3, e3, ?_⟩
  · have e : construct S L fuel (n + 4) [SM] p (pubArgs S L) =
        M.bind (callFn S.prog L fuel (n + 4) [SM, SM] (some p) (pubArgs S L)) (fun _ => M.ret ()) := by
      unfold construct
      show (if (S.prog.fn [SM, SM]).isSome = true then _ else _ : M Unit) = _
      rw [fn_of hS mem_ctor]
      rfl
    rw [e, bind_ok r3]
    rfl
  · have := s2.trans s3
    rw [Bool.false_or] at this
    exact this

end

end Sem

end Cpp

end Spec

end Rtcg
