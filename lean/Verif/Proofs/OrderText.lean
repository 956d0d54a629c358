import Verif.Proofs.OrderGen
import Verif.Spec.Make
import Verif.Proofs.HarnessSame

/-
Proofs for C114: the texts that rtcg-gen writes and the order of maps.
-/

namespace Rtcg

namespace Order

open Spec Spec.CppText Tmpl

/-! ### maps are visited in the order of their keys -/

theorem str_le_trans {a b c : Str} (h : a ≤ b) (h' : b ≤ c) : a ≤ c := List.le_trans h h'

theorem sortEntries_pairwise {α : Type} (m : GoMap Str α) : (sortEntries m).Pairwise (fun a b => a.1 ≤ b.1) := by
  unfold sortEntries
  have := List.pairwise_mergeSort (le := fun a b : Str × α => decide (a.1 ≤ b.1))
    (fun a b c h h' => decide_eq_true (List.le_trans (of_decide_eq_true h) (of_decide_eq_true h')))
    (fun a b => by simp only [Bool.or_eq_true, decide_eq_true_eq]; exact List.le_total a.1 b.1) m
  exact this.imp fun h => of_decide_eq_true h

theorem sortEntries_perm {α : Type} {m m' : GoMap Str α} (hm : GoMap.WF m) (hp : List.Perm m m') : sortEntries m' = sortEntries m := by
  have p1 : (sortEntries m).Perm m := List.mergeSort_perm _ _
  have p2 : (sortEntries m').Perm m' := List.mergeSort_perm _ _
  refine List.Perm.eq_of_pairwise (le := fun a b : Str × α => a.1 ≤ b.1) ?_ (sortEntries_pairwise m') (sortEntries_pairwise m)
    (p2.trans (hp.symm.trans p1.symm))
  intro a b ha hb h h'
  have e : a.1 = b.1 := List.le_antisymm h h'
  have ha' : a ∈ m := hp.mem_iff.2 (p2.mem_iff.1 ha)
  have hb' : b ∈ m := p1.mem_iff.1 hb
  have := GoMap.get?_of_mem hm (k := a.1) (v := a.2) ha'
  rw [e, GoMap.get?_of_mem hm (k := b.1) (v := b.2) hb'] at this
  exact Prod.ext e (Option.some.inj this).symm

theorem sortedKeys_perm {l l' : List Str} (hp : l.Perm l') : Templates.sortedKeys l' = Templates.sortedKeys l := by
  have pw : ∀ l : List Str, (Templates.sortedKeys l).Pairwise (· ≤ ·) := by
    intro l
    unfold Templates.sortedKeys
    have := List.pairwise_mergeSort (le := fun a b : Str => decide (a ≤ b))
      (fun a b c h h' => decide_eq_true (List.le_trans (of_decide_eq_true h) (of_decide_eq_true h')))
      (fun a b => by simp only [Bool.or_eq_true, decide_eq_true_eq]; exact List.le_total a b) l
    exact this.imp fun h => of_decide_eq_true h
  refine List.Perm.eq_of_pairwise (le := (· ≤ ·)) ?_ (pw l') (pw l)
    ((List.mergeSort_perm _ _).trans (hp.symm.trans (List.mergeSort_perm _ _).symm))
  intro a b _ _ h h'
  exact List.le_antisymm h h'

theorem flatMap_rel {α β : Type} {R : α → α → Prop} {l l' : List α} (h : List.Forall₂ R l l') {f g : α → List β} (hf : ∀ a b, a ∈ l → R a b → f a = g b) :
    l'.flatMap g = l.flatMap f := by
  induction h with
  | nil => rfl
  | cons a _ ih =>
    rw [List.flatMap_cons, List.flatMap_cons, hf _ _ (by simp) a, ih fun a b ha => hf a b (by simp [ha])]

theorem map_rel {α β : Type} {R : α → α → Prop} {l l' : List α} (h : List.Forall₂ R l l') {f g : α → β} (hf : ∀ a b, R a b → f a = g b) :
    l'.map g = l.map f := by
  induction h with
  | nil => rfl
  | cons a _ ih => rw [List.map_cons, List.map_cons, hf _ _ a, ih]

/-! ### convert.h and the Makefile -/

theorem convertText_to (U : Unicode) (v : Variant) {ctx ctx' : CppConfig.Context} (hw : GoMap.WF ctx.channelTypes) (h : CtxTo ctx ctx') :
    convertText U v ctx' = convertText U v ctx := by
  unfold convertText
  rw [sortEntries_perm hw h.2.1, h.1]

theorem makefileText_to {tests tests' : List Str} (ht : List.Perm tests tests') {ctx ctx' : CppConfig.Context} (h : CtxTo ctx ctx') :
    Templates.makefileText tests' ctx' = Templates.makefileText tests ctx := by
  unfold Templates.makefileText
  rw [sortedKeys_perm ht, h.2.2]

/-! ### main.cpp -/

section
variable (U : Unicode) (v : Variant)

theorem entry_to {s s' : State} (hw : GoMap.WF s.verdict) (h : StateTo s s') : entry U v s' = entry U v s := by
  obtain ⟨h1, h2, h3⟩ := h
  have e1 : s'.verdict.isFail = s.verdict.isFail := by
    rw [Bool.eq_iff_iff]
    unfold Verdict.isFail
    rw [Harness.is_iff, Harness.is_iff]
    exact ⟨fun ⟨k, hk⟩ => ⟨k, h3.mem_iff.2 hk⟩, fun ⟨k, hk⟩ => ⟨k, h3.mem_iff.1 hk⟩⟩
  have e2 : s'.hasIn = s.hasIn := by unfold State.hasIn; rw [h2]
  have e3 : s'.in_ = s.in_ := by unfold State.in_; rw [h2]
  unfold entry
  rw [e1, e2, e3, h2, h1, sortEntries_perm hw h3]
  unfold sendText receiveText
  rw [h1]

theorem outCallback_to {a a' : AggregateSet} (hw : GoMap.WF a.states) (h : AggTo a a') : outCallback U v a' = outCallback U v a := by
  unfold outCallback
  rw [h.1, sortEntries_perm hw h.2]

/-- The text before the verdicts, and the text after them. -/
def beforeVerdict (v : Variant) (date name : Str) (ctx : CppConfig.Context) : Str :=
  c!"//\n// Test " ++ name ++ c!"\n//\n// Test autogenerated by rtcg on " ++ date ++ c!"\n//\n\n" ++ includes v ctx ++
  c!"\n\n//\n// CONSTANTS\n//\n" ++ constants v ++
  c!"\n\n\n//\n// TEST VERDICTS\n//\n// In non-factorised tests, there will usually only be one test verdict;\n// factorised tests may have multiple.\n//\n"

def afterVerdict (name : Str) (m : Stm) (tc : TransitionContext) (ctx : CppConfig.Context) (first : Str) : Str :=
  c!"\n\n\n//\n// STATES\n//\n// Every step in the test has a corresponding state in the test state machine.\n// For non-factorised tests, these relate directly to points on the trace.\n//\n" ++
  (stateMeta U m.states ++
  (c!"\n\n\n//\n// MAIN TEST CLASS\n//\n// Most of the working parts of the test are here.\n//\n" ++
  (stmClass U v m tc first ++ (stmBodies U v m tc first ++
  (c!"\n\n\n//\n// ENTRY POINT\n//\n" ++ (mainFunction U v name tc ctx ++ c!"\n"))))))

theorem mainText_split (date name : Str) (m : Stm) (tc : TransitionContext) (ctx : CppConfig.Context) (first : Str) :
    mainText U v date name m tc ctx first = beforeVerdict v date name ctx ++ verdict U v (GoSet.values m.tests) ++
      afterVerdict U v name m tc ctx first := by
  simp only [mainText, beforeVerdict, afterVerdict, List.append_assoc]

theorem before_to (date name : Str) {ctx ctx' : CppConfig.Context} (h : CtxTo ctx ctx') :
    beforeVerdict v date name ctx' = beforeVerdict v date name ctx := by
  unfold beforeVerdict includes
  rw [h.1]

theorem stateMeta_to {l l' : List State} (h : List.Forall₂ StateTo l l') : stateMeta U l' = stateMeta U l := by
  unfold stateMeta
  rw [flatMap_rel h (f := fun s => c!"\n  " ++ Cpp.enumField U s.id ++ c!",") (fun a b _ hab => by rw [hab.1]),
    flatMap_rel h (f := fun s => c!"\n    case " ++ Cpp.stateEnum U s.id ++ c!":\n      return \"" ++ s.id ++ c!"\";") (fun a b _ hab => by rw [hab.1])]

theorem params_to {tc tc' : TransitionContext} (h : TcTo tc tc') (f : Channel → Str) :
    tc'.in_.map (fun a => f a.channel) = tc.in_.map (fun a => f a.channel) :=
  map_rel h.2.2.1 fun a b hab => by rw [hab.1]

theorem ins_to {tc tc' : TransitionContext} (h : TcTo tc tc') (f : Channel → Str) :
    tc'.in_.flatMap (fun a => f a.channel) = tc.in_.flatMap (fun a => f a.channel) :=
  flatMap_rel h.2.2.1 fun a b _ hab => by rw [hab.1]

theorem outs_to {tc tc' : TransitionContext} (h : TcTo tc tc') (f : Channel → Str) :
    tc'.out.flatMap (fun a => f a.channel) = tc.out.flatMap (fun a => f a.channel) :=
  flatMap_rel h.2.2.2.1 fun a b _ hab => by rw [hab.1]

theorem ctorParams_to {tc tc' : TransitionContext} (h : TcTo tc tc') : ctorParams U v tc' = ctorParams U v tc := by
  unfold ctorParams
  rw [params_to h (fun c => c!"ros::Publisher " ++ Templates.publisherName U c)]

theorem stmClass_to {m m' : Stm} (hm : List.Forall₂ StateTo m.states m'.states) {tc tc' : TransitionContext} (h : TcTo tc tc') (first : Str) :
    stmClass U v m' tc' first = stmClass U v m tc first := by
  have e1 : stmFields U v tc' = stmFields U v tc := by
    unfold stmFields
    rw [ins_to h (fun c => c!"\n  ros::Publisher " ++ Templates.publisherName U c ++ c!"_;")]
  unfold stmClass
  rw [ctorParams_to U v h, e1, h.2.2.2.2.2.1, h.2.2.2.2.2.2,
    outs_to h (fun c => c!"\n  void " ++ Cpp.callbackName c.name ++ c!"(const " ++ Cpp.channelMsgType U c.name ++ c!" msg);"),
    flatMap_rel hm (f := fun s => c!"\n  void " ++ Cpp.stateEntry U s.id ++ c!"();") (fun a b _ hab => by rw [hab.1])]

theorem stmBodies_to {m m' : Stm} (hs : ∀ s ∈ m.states, GoMap.WF s.verdict) (hm : List.Forall₂ StateTo m.states m'.states)
    {tc tc' : TransitionContext} (ho : ∀ a ∈ tc.out, GoMap.WF a.states) (hi : GoMap.WF tc.inMerged) (h : TcTo tc tc') (first : Str) :
    stmBodies U v m' tc' first = stmBodies U v m tc first := by
  have e1 : ctor U v tc' first = ctor U v tc first := by
    have e : installHandles U v tc' = installHandles U v tc := by
      unfold installHandles
      rw [ins_to h (fun c => c!"\n  " ++ Templates.publisherName U c ++ c!"_ = " ++ Templates.publisherName U c ++ c!";")]
    unfold ctor
    rw [ctorParams_to U v h, e, h.2.2.2.2.2.2]
  have e2 : inputAcceptedCallback U v tc'.inMerged = inputAcceptedCallback U v tc.inMerged := by
    unfold inputAcceptedCallback
    rw [sortEntries_perm hi h.2.2.2.2.1]
  unfold stmBodies
  rw [e1, e2, h.2.2.2.2.2.1, h.2.2.2.2.2.2, flatMap_rel h.2.2.2.1 (fun a b ha hab => (outCallback_to U v (ho a ha) hab).symm),
    flatMap_rel hm (fun a b ha hab => (entry_to U v (hs a ha) hab).symm)]

theorem mainFunction_to (name : Str) {tc tc' : TransitionContext} (h : TcTo tc tc') {ctx ctx' : CppConfig.Context} (hw : GoMap.WF ctx.channelTypes)
    (hc : CtxTo ctx ctx') : mainFunction U v name tc' ctx' = mainFunction U v name tc ctx := by
  have g := fun ch => (GoMap.get?_perm hw hc.2.1 (k := ch)).symm
  have e1 : preInit U v name tc' = preInit U v name tc := by
    unfold preInit
    rw [ins_to h (fun c => c!"\n  auto " ++ Templates.publisherName U c ++ c!" = nh.advertise<" ++ Cpp.channelValueType U c.name ++
      c!">(\"" ++ Templates.topicName U c ++ c!"\", 1000);")]
  have e2 : ctorArgs U v tc' = ctorArgs U v tc := by
    unfold ctorArgs
    rw [params_to h (fun c => Templates.publisherName U c)]
  have e3 : init U v tc' = init U v tc := by
    unfold init
    rw [h.2.2.2.2.2.1, h.2.2.2.2.2.2,
      outs_to h (fun c => c!"\n  auto " ++ Templates.subscriberName U c ++ c!" = nh.subscribe(\"" ++ Templates.topicName U c ++
        c!"\", 10, &StateMachine::" ++ Cpp.callbackName c.name ++ c!", &stm);")]
  have e4 : ∀ ch, cppTypeOf ctx' ch = cppTypeOf ctx ch := fun ch => by unfold cppTypeOf; rw [g]
  have e5 : ∀ ch, typeWord ctx' ch = typeWord ctx ch := fun ch => by unfold typeWord; rw [g]
  have e6 : (tc'.out = []) ↔ (tc.out = []) := by
    rw [← List.length_eq_zero_iff, ← List.length_eq_zero_iff, h.2.2.2.1.length_eq]
  have e7 : animateBody U tc' ctx' = animateBody U tc ctx := by
    unfold animateBody
    simp only [e4, e5, e6]
    rw [h.2.2.2.2.2.1, h.2.2.2.2.2.2,
      outs_to h (fun c => c!"\n    std::cout << \"  " ++ c.name ++ c!" (type: " ++ typeWord ctx c.name ++ c!")\\n\";"),
      outs_to h (fun c => c!"\n    else if (choice == \"" ++ c.name ++ c!"\")\n    {\n      " ++ cppTypeOf ctx c.name ++
    c!" in;\n      std::cin >> in;\n\n      stm." ++ Cpp.callbackName c.name ++ c!"(" ++ Cpp.convertTo U c.name ++
    c!"(in));\n    }")]
  unfold mainFunction mainBody
  rw [e1, e2, e3, e7]

theorem after_to (name : Str) {m m' : Stm} (hs : ∀ s ∈ m.states, GoMap.WF s.verdict) (hm : StmTo m m')
    {tc tc' : TransitionContext} (ho : ∀ a ∈ tc.out, GoMap.WF a.states) (hi : GoMap.WF tc.inMerged) (h : TcTo tc tc')
    {ctx ctx' : CppConfig.Context} (hw : GoMap.WF ctx.channelTypes) (hc : CtxTo ctx ctx') (first : Str) :
    afterVerdict U v name m' tc' ctx' first = afterVerdict U v name m tc ctx first := by
  unfold afterVerdict
  rw [stateMeta_to U hm.1, stmClass_to U v hm.1 h, stmBodies_to U v hs hm.1 ho hi h, mainFunction_to U v name h hw hc]

/-! ### lines -/

open Make (lines)

/-- Nothing, or something that begins with a new line -/
def NL (x : Str) : Prop := x = [] ∨ ∃ y, x = '\n' :: y

theorem lines_nl (y : Str) : lines ('\n' :: y) = [] :: lines y := rfl

theorem lines_ne (s : Str) : lines s ≠ [] := by
  unfold lines
  induction s with
  | nil => simp [Make.cut]
  | cons c s ih =>
    unfold Make.cut
    split
    · simp
    · intro h
      cases hc : Make.cut (fun x => x == '\n') s with
      | nil => exact ih hc
      | cons a l => rw [hc] at h; simp at h

theorem cut_cons (c : Char) (s : Str) : Make.cut (fun x => x == '\n') (c :: s) =
    if (c == '\n') = true then [] :: Make.cut (fun x => x == '\n') s else (Make.cut (fun x => x == '\n') s).modifyHead (c :: ·) := by
  rw [Make.cut]

theorem lines_app (a : Str) {x : Str} (hx : NL x) : lines (a ++ x) = lines a ++ (lines x).tail := by
  induction a with
  | nil =>
    rcases hx with rfl | ⟨y, rfl⟩
    · rfl
    · rfl
  | cons c a ih =>
    rw [List.cons_append]
    unfold lines at ih ⊢
    rw [cut_cons, cut_cons, ih]
    split
    · rfl
    · cases hc : Make.cut (fun x => x == '\n') a with
      | nil => exact absurd hc (lines_ne a)
      | cons b l => rfl

theorem tail_app {x y : Str} (hx : NL x) (hy : NL y) : (lines (x ++ y)).tail = (lines x).tail ++ (lines y).tail := by
  rw [lines_app x hy]
  rcases hx with rfl | ⟨z, rfl⟩
  · rfl
  · rw [lines_nl]; rfl

theorem NL.app {x y : Str} (hx : NL x) (hy : NL y) : NL (x ++ y) := by
  rcases hx with rfl | ⟨z, rfl⟩
  · exact hy
  · exact .inr ⟨_, rfl⟩

theorem NL.flatMap {α : Type} {f : α → Str} (h : ∀ t, NL (f t)) (l : List α) : NL (l.flatMap f) := by
  induction l with
  | nil => exact .inl rfl
  | cons t l ih => rw [List.flatMap_cons]; exact (h t).app ih

theorem tail_flatMap {α : Type} {f : α → Str} (h : ∀ t, NL (f t)) (l : List α) :
    (lines (l.flatMap f)).tail = l.flatMap (fun t => (lines (f t)).tail) := by
  induction l with
  | nil => rfl
  | cons t l ih => rw [List.flatMap_cons, tail_app (h t) (NL.flatMap h l), ih, List.flatMap_cons]

theorem tail_perm {α : Type} {f : α → Str} (h : ∀ t, NL (f t)) {l l' : List α} (hp : l.Perm l') :
    (lines (l.flatMap f)).tail.Perm (lines (l'.flatMap f)).tail := by
  rw [tail_flatMap h, tail_flatMap h]
  exact hp.flatMap_right _

theorem verdict_lines {tests tests' : List Str} (hp : tests.Perm tests') (a b : Str) (hb : NL b) :
    (lines (a ++ verdict U v tests ++ b)).Perm (lines (a ++ verdict U v tests' ++ b)) := by
  have n1 : ∀ t, NL (setterDecl t) := fun t => .inr ⟨_, rfl⟩
  have n2 : ∀ t, NL (outcomeField t) := fun t => .inr ⟨_, rfl⟩
  have n3 : ∀ t, NL (dumpLine U v t) := fun t => .inr ⟨_, rfl⟩
  have n4 : ∀ t, NL (setter U v t) := fun t => .inr ⟨_, rfl⟩
  let x1 : Str := c!"\n// Records information about test verdicts.\nclass Verdict\n{\npublic:\n  void dump(); // Outputs all test verdicts to log."
  let x2 : Str := c!"\nprivate:"
  let x3 : Str := c!"\n};\n\nvoid Verdict::dump()\n{\n  " ++ logged U v c!"info" c!"\"Final outcomes: \""
  let x4 : Str := c!"\n}"
  have e : ∀ tests, verdict U v tests = x1 ++ (tests.flatMap setterDecl ++ (x2 ++ (tests.flatMap outcomeField ++ (x3 ++
      (tests.flatMap (dumpLine U v) ++ (x4 ++ tests.flatMap (setter U v))))))) := by
    intro tests
    simp only [verdict, x1, x2, x3, x4, List.append_assoc]
  have m1 : NL x1 := .inr ⟨_, rfl⟩
  have m2 : NL x2 := .inr ⟨_, rfl⟩
  have m3 : NL x3 := .inr ⟨_, rfl⟩
  have m4 : NL x4 := .inr ⟨_, rfl⟩
  have key : ∀ tests : List Str, lines (a ++ verdict U v tests ++ b) = lines a ++ ((lines x1).tail ++ ((lines (tests.flatMap setterDecl)).tail ++
      ((lines x2).tail ++ ((lines (tests.flatMap outcomeField)).tail ++ ((lines x3).tail ++ ((lines (tests.flatMap (dumpLine U v))).tail ++
      ((lines x4).tail ++ (lines (tests.flatMap (setter U v))).tail))))))) ++ (lines b).tail := by
    intro tests
    have k1 := NL.flatMap n1 tests
    have k2 := NL.flatMap n2 tests
    have k3 := NL.flatMap n3 tests
    have k4 := NL.flatMap n4 tests
    rw [e, lines_app _ hb, lines_app]
    rw [tail_app m1, tail_app k1, tail_app m2, tail_app k2, tail_app m3, tail_app k3, tail_app m4 k4]
    · exact m4.app k4
    · exact k3.app (m4.app k4)
    · exact m3.app (k3.app (m4.app k4))
    · exact k2.app (m3.app (k3.app (m4.app k4)))
    · exact m2.app (k2.app (m3.app (k3.app (m4.app k4))))
    · exact k1.app (m2.app (k2.app (m3.app (k3.app (m4.app k4)))))
    · exact m1.app (k1.app (m2.app (k2.app (m3.app (k3.app (m4.app k4))))))
  rw [key, key]
  refine List.Perm.append (List.Perm.append (List.Perm.refl _) ?_) (List.Perm.refl _)
  refine List.Perm.append (List.Perm.refl _) (List.Perm.append (tail_perm n1 hp) (List.Perm.append (List.Perm.refl _)
    (List.Perm.append (tail_perm n2 hp) (List.Perm.append (List.Perm.refl _) (List.Perm.append (tail_perm n3 hp)
    (List.Perm.append (List.Perm.refl _) (tail_perm n4 hp)))))))

theorem mainText_to (date name : Str) {m m' : Stm} (hs : ∀ s ∈ m.states, GoMap.WF s.verdict) (hm : StmTo m m')
    {tc tc' : TransitionContext} (ho : ∀ a ∈ tc.out, GoMap.WF a.states) (hi : GoMap.WF tc.inMerged) (h : TcTo tc tc')
    {ctx ctx' : CppConfig.Context} (hw : GoMap.WF ctx.channelTypes) (hc : CtxTo ctx ctx') (first : Str) :
    (lines (mainText U v date name m tc ctx first)).Perm (lines (mainText U v date name m' tc' ctx' first)) ∧
    ((GoSet.values m.tests).length ≤ 1 → mainText U v date name m' tc' ctx' first = mainText U v date name m tc ctx first) := by
  have hp : (GoSet.values m.tests).Perm (GoSet.values m'.tests) := by
    unfold GoSet.values
    exact (hm.2.2.filter _).map _
  rw [mainText_split, mainText_split, before_to v date name hc, after_to U v name hs hm ho hi h hw hc]
  refine ⟨verdict_lines U v hp _ _ (.inr ⟨_, rfl⟩), fun h1 => ?_⟩
  have : GoSet.values m'.tests = GoSet.values m.tests := by
    generalize GoSet.values m.tests = l at hp h1
    match l, h1 with
    | [], _ => exact hp.nil_eq.symm
    | [a], _ => exact (List.perm_singleton.1 hp.symm)
  rw [this]

end

open Make (lines)

/-- The text of a file of a suite, written in another order. -/
theorem text_to (T : TextLayer) {suite : StmSuite} {c : CppConfig.Config} (hv : c.variant = .animate ∨ c.variant = .ros) (hwt : GoMap.WF suite.types)
    (hm : ∀ k m, (k, m) ∈ suite.tests → StmMaps m) {rc : List Str × Content} (hrc : rc ∈ filesOf suite c) (he : Templates.execute rc.2 = .ok ())
    {k' : Content} (h : ContentTo rc.2 k') :
    (lines (T.text rc.2)).Perm (lines (T.text k')) ∧
    (T.text k' = T.text rc.2 ∨ ∃ nt ∈ suite.tests, 2 ≤ (GoSet.values nt.2.tests).length ∧ rc.1 = [c!"src", nt.1, c!"src", c!"main.cpp"]) := by
  have hctx : GoMap.WF (c.process suite.types).channelTypes := (C48_process c suite.types hwt).2.1
  have of_eq : ∀ {a b : Str} {Q : Prop}, b = a → (lines a).Perm (lines b) ∧ (b = a ∨ Q) := by
    rintro a b Q rfl; exact ⟨List.Perm.refl _, .inl rfl⟩
  have same : k' = rc.2 → (lines (T.text rc.2)).Perm (lines (T.text k')) ∧
    (T.text k' = T.text rc.2 ∨ ∃ nt ∈ suite.tests, 2 ≤ (GoSet.values nt.2.tests).length ∧ rc.1 = [c!"src", nt.1, c!"src", c!"main.cpp"]) := by
    rintro rfl; exact of_eq rfl
  unfold filesOf at hrc
  simp only [List.mem_append] at hrc
  rcases hrc with ((hrc | hrc) | hrc) | hrc
  · simp only [List.mem_cons, List.not_mem_nil, or_false] at hrc
    rcases hrc with rfl | rfl | rfl
    · cases h; exact same rfl
    · cases h; exact same rfl
    · cases h with
      | same => exact same rfl
      | @convertH _ _ ctx' h =>
        have he' : Templates.execute (.convertH c.variant ctx') = .ok () := by
          rw [← he]; exact (execute_to (.convertH h) (fun v n m tc ctx e => by cases e)).symm
        refine of_eq ?_
        show (render T.unicode T.date _).1 = (render T.unicode T.date _).1
        rw [Exec.convert_render T.unicode T.date _ hv _ he, Exec.convert_render T.unicode T.date _ hv _ he']
        exact convertText_to T.unicode c.variant hctx h
  · obtain ⟨nt, hnt, rfl⟩ := List.mem_map.1 hrc
    cases h with
    | same => exact same rfl
    | @mainCpp _ _ _ m' _ tc' _ ctx' h1 h2 h3 =>
      have he' : Templates.execute (.mainCpp c.variant nt.1 m' tc' ctx') = .ok () := by
        rw [← he]; exact (execute_to (.mainCpp h1 h2 h3) (fun v n m tc ctx e => by cases e; exact hctx)).symm
      have ha := fun a ha => ((C38_aggregates nt.2).2 a ha).1
      have ho : ∀ a ∈ (TransitionContext.make nt.2).out, GoMap.WF a.states := by
        intro a h; rw [make_eq] at h; exact ha a (List.mem_filter.1 h).1
      have hi : GoMap.WF (TransitionContext.make nt.2).inMerged := by
        rw [make_eq]; exact mergeAll_wf GoMap.wf_nil _
      have hf : Exec.firstId m' = Exec.firstId nt.2 := by
        unfold Exec.firstId
        have := h1.1
        generalize nt.2.states = l, m'.states = l' at this
        cases this with
        | nil => rfl
        | cons a _ => exact a.1
      have key := mainText_to T.unicode c.variant T.date nt.1 (hm nt.1 nt.2 hnt).1 h1 ho hi h2 hctx h3 (Exec.firstId nt.2)
      have e1 : T.text (.mainCpp c.variant nt.1 nt.2 (TransitionContext.make nt.2) (c.process suite.types)) =
          mainText T.unicode c.variant T.date nt.1 nt.2 (TransitionContext.make nt.2) (c.process suite.types) (Exec.firstId nt.2) := by
        show (render T.unicode T.date _).1 = _
        rw [Exec.main_render T.unicode T.date _ hv _ _ _ _ he]
      have e2 : T.text (.mainCpp c.variant nt.1 m' tc' ctx') =
          mainText T.unicode c.variant T.date nt.1 m' tc' ctx' (Exec.firstId nt.2) := by
        show (render T.unicode T.date _).1 = _
        rw [Exec.main_render T.unicode T.date _ hv _ _ _ _ he', hf]
      rw [e1, e2]
      refine ⟨key.1, ?_⟩
      by_cases h : (GoSet.values nt.2.tests).length ≤ 1
      · exact .inl (key.2 h)
      · exact .inr ⟨nt, hnt, by omega, rfl⟩
  · cases hk : c.catkin with
    | none => rw [hk] at hrc; cases hrc
    | some pkg =>
      rw [hk] at hrc
      obtain ⟨nt, _, hrc⟩ := List.mem_flatMap.1 hrc
      simp only [List.mem_cons, List.not_mem_nil, or_false] at hrc
      rcases hrc with rfl | rfl
      · cases h; exact same rfl
      · cases h; exact same rfl
  · split at hrc
    · rw [List.mem_singleton.1 hrc] at h same ⊢
      cases h with
      | same => exact same rfl
      | makefile h1 h2 => exact of_eq (makefileText_to h1 h2)
    · cases hrc

end Order

end Rtcg
