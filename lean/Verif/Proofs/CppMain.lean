import Verif.Proofs.CppBodies

/-
The tokens of main.cpp.
-/

set_option linter.unusedSimpArgs false

namespace Rtcg

namespace Spec

namespace Cpp

namespace Lex

open Tree (stmtsOf argsOf)
open Parse (pSs pSt pItem pItems pE pA pParams pType)
open CppText Templates Rtcg.Cpp Tmpl

variable {U : Unicode} {v : Variant}

/-! ### entry functions -/

theorem sendText_blk (h : Env U v) {s : State} {c : Channel} {t : Transition} (hs : Plain s.id) (hc : GoodChannel U c)
    (ht : GoodTransition U t) : Blk (sendText U v s c t) (pSs (stmtsOf (Tree.sendingS U v s c t))) := by
  have h1 := ht.1.2
  have h2 := ht.2.2.2
  have h3 := ident_W hc.2.2.2.1
  have h4 := ident_W hc.2.2.2.2.2.1
  have h5 := hc.2.2.2.2.2.2.2.2.1
  have h6 := value_run ht.1
  block h with [sendText, sendInput, Tree.sendingS, Tree.sendS, Tree.convE, hs, h1, h2, h3, h4, h5, h6]

theorem receiveText_blk (h : Env U v) {s : State} {c : Channel} {t : Transition} (hs : Plain s.id) (hc : GoodChannel U c)
    (ht : GoodTransition U t) : Blk (receiveText U v s c t) (pSt (Tree.receivingS U v s c t)) := by
  have h1 := ht.1.2
  have h2 := ht.2.2.2
  have h5 := hc.2.2.2.2.2.2.2.2.1
  block h with [receiveText, Tree.receivingS, hs, h1, h2, h5]

theorem setVerdict_blk (h : Env U v) (ho : ∀ o : Outcome, o.val.toNat < 4 → Ident (enumField U o.string)) {e : Str × Outcome}
    (he : Ident e.1 ∧ e.2.val.toNat < 4) : Blk (setVerdict U e) (pSt (.expr (Tree.mcall c!"verdict_" e.1 [Tree.outcomeE U e.2]))) := by
  have h1 := ident_W he.1
  have h2 := ident_W (ho _ he.2)
  block h with [setVerdict, outcomeEnum, rtcgEnumName, localEnumName, Tree.outcomeE, h1, h2]

theorem in_mem {l : List TSet} {c : Channel} {t : Transition} (h : State.in_.go l = some (c, t)) :
    ∃ ts ∈ l, ts.channel = c ∧ t ∈ ts.transitions := by
  induction l with
  | nil => cases h
  | cons x l ih =>
    rw [State.in_.go] at h
    split at h
    · cases hx : x.transitions with
      | nil =>
        rw [hx] at h
        obtain ⟨ts, h1, h2⟩ := ih h
        exact ⟨ts, List.mem_cons_of_mem _ h1, h2⟩
      | cons y ys =>
        rw [hx] at h
        cases h
        exact ⟨x, by simp, rfl, by simp [hx]⟩
    · obtain ⟨ts, h1, h2⟩ := ih h
      exact ⟨ts, List.mem_cons_of_mem _ h1, h2⟩

theorem entry_blk (h : Env U v) (ho : ∀ o : Outcome, o.val.toNat < 4 → Ident (enumField U o.string)) {s : State} (hs : GoodState U s) :
    Blk (entry U v s) (pItem (Tree.entryItem U v s)) := by
  obtain ⟨hi, hv, ht⟩ := hs
  have h1 := ident_W hi.1
  have h2 := ident_W hi.2.1
  have h3 := hi.2.2
  have b1 := Blk.flatMap (sortEntries s.verdict) (f := setVerdict U)
    (p := fun e => pSt (.expr (Tree.mcall c!"verdict_" e.1 [Tree.outcomeE U e.2])))
    fun e he => setVerdict_blk h ho (hv e ((Exec.mem_sortEntries _ e).1 he))
  by_cases hf : s.verdict.isFail = true
  · block h with [entry, Tree.entryItem, Tree.SM, Tree.settleS, hf, Tree.endS, stateEnum, localEnumName, Tree.stateE, h1, h2, h3, b1.run, b1.nl]
  · by_cases hn : s.hasIn = true
    · cases hin : s.in_ with
      | none =>
        block h with [entry, Tree.entryItem, Tree.SM, Tree.settleS, hf, hn, hin, Tree.endS, stateEnum, localEnumName, Tree.stateE, h1, h2, h3,
          b1.run, b1.nl, Bool.false_eq_true]
      | some ct =>
        obtain ⟨c, t⟩ := ct
        obtain ⟨ts, hm, rfl, hmt⟩ := in_mem hin
        have b2 := sendText_blk h h3 (ht ts hm).1 ((ht ts hm).2 t hmt)
        block h with [entry, Tree.entryItem, Tree.SM, Tree.settleS, hf, hn, hin, Tree.endS, stateEnum, localEnumName, Tree.stateE, h1, h2, h3,
          b1.run, b1.nl, b2.run, b2.nl, Bool.false_eq_true]
    · have b2 : Blk (s.transitionSets.flatMap (fun ts => ts.transitions.flatMap (receiveText U v s ts.channel)))
          (s.transitionSets.flatMap (fun ts => ts.transitions.flatMap (fun t => pSt (Tree.receivingS U v s ts.channel t)))) :=
        Blk.flatMap _ fun ts hm => Blk.flatMap _ fun t hmt => receiveText_blk h h3 (ht ts hm).1 ((ht ts hm).2 t hmt)
      block h with [entry, Tree.entryItem, Tree.SM, Tree.settleS, hf, hn, Tree.endS, stateEnum, localEnumName, Tree.stateE, h1, h2, h3,
          b1.run, b1.nl, b2.run, b2.nl, Bool.false_eq_true]

/-! ### the functions of the class -/

theorem bodies_run (h : Env U v) (ho : ∀ o : Outcome, o.val.toNat < 4 → Ident (enumField U o.string)) {date name : Str} {m : Stm}
    {tc : TransitionContext} {ctx : CppConfig.Context} {first : Str} (g : GoodMain U date name m tc ctx first) (rest : Str) (hr : NL rest) :
    L .idle (stmBodies U v m tc first ++ rest) = pItems (Tree.bodyItems U v m tc first) ++ L .idle rest := by
  have b1 := helpers_blk h
  have b2 := timeout_blk h
  have b3 : Blk (if tc.firstStateHasIn then initialDelayCallback U v first else []) (if tc.firstStateHasIn then _ else []) :=
    Blk.ite (fun _ => delay_blk h g.first) (fun _ => Blk.nil)
  have b4 : Blk (if tc.hasIn then inputAcceptedCallback U v tc.inMerged else []) (if tc.hasIn then _ else []) :=
    Blk.ite (fun _ => accepted_blk h g.merged) (fun _ => Blk.nil)
  have b5 := Blk.flatMap tc.out (f := outCallback U v) fun a ha => outCallback_blk h (g.outSets a ha)
  have b6 : Blk c!"\n\n\n//\n// State machine entry functions\n//" [] := ⟨NL.head rfl, fun rest hr => by lexing [hr]⟩
  have b7 := Blk.flatMap m.states (f := entry U v) fun s hs => entry_blk h ho (g.states s hs)
  have b := (((((b1.app b2).app b3).app b4).app b5).app b6).app b7
  have e : stmBodies U v m tc first ++ rest = ctor U v tc first ++ ((helpers U v ++ timeoutCallback U v ++
      (if tc.firstStateHasIn then initialDelayCallback U v first else []) ++
      (if tc.hasIn then inputAcceptedCallback U v tc.inMerged else []) ++
      tc.out.flatMap (outCallback U v) ++ c!"\n\n\n//\n// State machine entry functions\n//" ++ m.states.flatMap (entry U v)) ++ rest) := by
    unfold stmBodies
    generalize c!"\n\n\n//\n// State machine entry functions\n//" = x
    simp only [List.append_assoc]
  rw [e, ctor_run h g.first g.inSets _ (b.nl.app hr), b.run _ hr]
  unfold Tree.bodyItems
  cases h1 : tc.firstStateHasIn <;> cases h2 : tc.hasIn <;>
    simp only [pItems_app, pItems_cons, pItems_nil, pItems_map, List.append_assoc, List.append_nil, List.nil_append, if_true, if_false,
      Bool.false_eq_true]

/-! ### the function main -/

/-- The creation of a publisher -/
def pubMake (U : Unicode) (a : AggregateSet) : Str :=
  c!"\n  auto " ++ publisherName U a.channel ++ c!" = nh.advertise<" ++ channelValueType U a.channel.name ++
      c!">(\"" ++ topicName U a.channel ++ c!"\", 1000);"

theorem preInit_blk (h : Env U v) {name : Str} {tc : TransitionContext} (hn : Plain name) (hin : ∀ a ∈ tc.in_, GoodAggregate U a) :
    Blk (preInit U v name tc) (pSs (stmtsOf (Tree.preInit U v name tc))) := by
  have b1 : Blk (tc.in_.flatMap (pubMake U)) (tc.in_.flatMap fun a => pSt (Tree.advertise U a)) :=
    Blk.flatMap tc.in_ fun a ha => by
      have h1 := ident_W (hin a ha).1.2.2.2.2.2.1
      have h2 := ident_W (hin a ha).1.2.2.1
      have h3 := (hin a ha).1.2.2.2.2.2.2.2.1
      have h4 := W_unsigned h2
      block h with [pubMake, Tree.advertise, h1, h2, h3, h4]
  have e : (fun a : AggregateSet => c!"\n  auto " ++ publisherName U a.channel ++ c!" = nh.advertise<" ++
    channelValueType U a.channel.name ++ c!">(\"" ++ topicName U a.channel ++ c!"\", 1000);") = pubMake U := rfl
  unfold preInit Tree.preInit
  rcases h.v with rfl | rfl
  · exact Blk.nil
  · rw [if_pos rfl, if_pos rfl, e]
    exact ⟨NL.head rfl, fun rest hr => by lexing [hr, hn, pSs_app, pSs_map, b1.run, b1.nl, NL.app]⟩

/-- The subscription to an output -/
def subMake (U : Unicode) (a : AggregateSet) : Str :=
  c!"\n  auto " ++ subscriberName U a.channel ++ c!" = nh.subscribe(\"" ++ topicName U a.channel ++
      c!"\", 10, &StateMachine::" ++ callbackName a.channel.name ++ c!", &stm);"

theorem init_blk (h : Env U v) {tc : TransitionContext} (hout : ∀ a ∈ tc.out, GoodAggregate U a) :
    Blk (CppText.init U v tc) (pSs (stmtsOf (Tree.init U v tc))) := by
  have b1 : Blk (tc.out.flatMap (subMake U)) (tc.out.flatMap fun a =>
      pSt (Tree.subscribe (subscriberName U a.channel) (topicName U a.channel) (callbackName a.channel.name))) :=
    Blk.flatMap tc.out fun a ha => by
      have h1 := ident_W (hout a ha).1.2.2.2.2.2.2.1
      have h2 := ident_W (hout a ha).1.1
      have h3 := (hout a ha).1.2.2.2.2.2.2.2.1
      block h with [subMake, Tree.subscribe, Tree.method, Tree.stmE, Tree.SM, h1, h2, h3]
  have e : (fun a : AggregateSet => c!"\n  auto " ++ subscriberName U a.channel ++ c!" = nh.subscribe(\"" ++ topicName U a.channel ++
      c!"\", 10, &StateMachine::" ++ callbackName a.channel.name ++ c!", &stm);") = subMake U := rfl
  unfold CppText.init Tree.init
  rcases h.v with rfl | rfl
  · exact Blk.nil
  · rw [if_pos rfl, if_pos rfl, e]
    cases h1 : tc.firstStateHasIn <;> cases h2 : tc.hasIn <;>
      exact ⟨NL.head rfl, fun rest hr => by
        lexing [hr, pSs_app, pSs_map, b1.run, b1.nl, NL.app, NL.cons, Tree.subscribe, Tree.timer, Tree.method, Tree.stmE, Tree.SM,
          Bool.false_eq_true]⟩

/-! ### the main loop of the animate variant -/

/-- The offer of an output -/
def outSay (ctx : CppConfig.Context) (a : AggregateSet) : Str :=
  c!"\n    std::cout << \"  " ++ a.channel.name ++ c!" (type: " ++ typeWord ctx a.channel.name ++ c!")\\n\";"

/-- The choice of an output -/
def outPick (U : Unicode) (ctx : CppConfig.Context) (a : AggregateSet) : Str :=
  c!"\n    else if (choice == \"" ++ a.channel.name ++ c!"\")\n    {\n      " ++ cppTypeOf ctx a.channel.name ++
    c!" in;\n      std::cin >> in;\n\n      stm." ++ callbackName a.channel.name ++ c!"(" ++ convertTo U a.channel.name ++
    c!"(in));\n    }"

def pIf (c : Expr) (a : Stmt) : List Tok := .word c!"if" :: .op c!"(" :: (pE c ++ .op c!")" :: pSt a)

theorem pSt_if {c : Expr} {a b : Stmt} (hb : b ≠ .skip) : pSt (.ite c a b) = pIf c a ++ .word c!"else" :: pSt b := by
  rw [pSt_ite hb]
  simp only [pIf, List.cons_append, List.append_assoc]

theorem outChoices_ne (ctx : CppConfig.Context) (l : List AggregateSet) : Tree.outChoices U ctx l ≠ .skip := by
  cases l <;> (intro h; cases h)

theorem outChoices_else (ctx : CppConfig.Context) (l : List AggregateSet) :
    .word c!"else" :: pSt (Tree.outChoices U ctx l) =
      l.flatMap (fun a => .word c!"else" :: pIf (Tree.choiceIs a.channel.name) (Tree.outChoice U ctx a)) ++
        .word c!"else" :: pSt (Tree.say c!"Sorry, try again.\n") := by
  induction l with
  | nil => rfl
  | cons a l ih =>
    rw [Tree.outChoices, pSt_if (outChoices_ne ctx l), ih]
    simp only [List.flatMap_cons, List.cons_append, List.append_assoc]

theorem acceptChoice_ne (tc : TransitionContext) (ctx : CppConfig.Context) : Tree.acceptChoice U tc ctx ≠ .skip := by
  unfold Tree.acceptChoice
  split
  · intro h; cases h
  · exact outChoices_ne ctx _

theorem readyChoice_ne (tc : TransitionContext) (ctx : CppConfig.Context) : Tree.readyChoice U tc ctx ≠ .skip := by
  unfold Tree.readyChoice
  split
  · intro h; cases h
  · exact acceptChoice_ne tc ctx

/-- The choices as a list of tokens -/
theorem pSt_choices (tc : TransitionContext) (ctx : CppConfig.Context) :
    pSt (Tree.choices U tc ctx) = pIf (Tree.choiceIs c!"timeout") (.expr (Tree.mcall c!"stm" c!"timeoutCallback" [])) ++
      ((if tc.firstStateHasIn then .word c!"else" :: pIf (.and (Tree.choiceIs c!"ready") (Tree.statusIs c!"WAIT_START"))
        (.expr (Tree.mcall c!"stm" c!"initialDelayCallback" [])) else []) ++
       ((if tc.hasIn then .word c!"else" :: pIf (.and (Tree.choiceIs c!"accept") (Tree.statusIs c!"WAIT_IN"))
        (.expr (Tree.mcall c!"stm" c!"inputAcceptedCallback" [])) else []) ++
       (tc.out.flatMap (fun a => .word c!"else" :: pIf (Tree.choiceIs a.channel.name) (Tree.outChoice U ctx a)) ++
        .word c!"else" :: pSt (Tree.say c!"Sorry, try again.\n")))) := by
  rw [Tree.choices, pSt_if (readyChoice_ne tc ctx)]
  unfold Tree.readyChoice Tree.acceptChoice
  cases tc.firstStateHasIn <;> cases tc.hasIn <;>
    simp only [if_true, if_false, Bool.false_eq_true, pSt_if (outChoices_ne ctx _), pSt_if (b := .ite _ _ _) (by intro h; cases h), outChoices_else,
      List.nil_append, List.append_assoc, List.cons_append]

theorem typeE_run (t : RsType) (rest : Str) :
    L .idle (stdType t ++ ' ' :: 'i' :: 'n' :: ';' :: rest) = pType (Tree.typeE t) ++ L .idle (' ' :: 'i' :: 'n' :: ';' :: rest) := by
  unfold stdType Tree.typeE
  cases h1 : t.isEnum <;> cases h2 : t.isNat <;> cases h3 : t.isInt <;> cases h4 : t.isReal <;>
    lexing [Bool.false_eq_true]

theorem outPick_blk (h : Env U v) {ctx : CppConfig.Context} {a : AggregateSet} (ha : GoodChannel U a.channel) {t : CppConfig.ChannelType}
    {ty : RsType} (h1 : GoMap.get? ctx.channelTypes a.channel.name = some t) (h2 : t.base = some ty) :
    Blk (outPick U ctx a) (.word c!"else" :: pIf (Tree.choiceIs a.channel.name) (Tree.outChoice U ctx a)) := by
  have hc : cppTypeOf ctx a.channel.name = stdType ty := by simp only [cppTypeOf, h1, Option.bind_some, h2]
  have hb : Tree.baseOf ctx a.channel.name = some ty := by simp only [Tree.baseOf, h1, Option.bind_some, h2]
  have h3 := ha.2.2.2.2.2.2.2.2.1
  have h4 := ident_W ha.1
  have h5 := ident_W ha.2.2.2.1
  have h6 := typeE_run ty
  block h with [outPick, pIf, Tree.outChoice, Tree.choiceIs, Tree.readS, hc, hb, Option.elim_some, h3, h4, h5, h6]

theorem outSay_blk (h : Env U v) {ctx : CppConfig.Context} {a : AggregateSet} (ha : GoodChannel U a.channel) {t : CppConfig.ChannelType}
    {ty : RsType} (h1 : GoMap.get? ctx.channelTypes a.channel.name = some t) (h2 : t.base = some ty) (hp : Plain (typeString ty)) :
    Blk (outSay ctx a) (pSt (Tree.say (c!"  " ++ a.channel.name ++ c!" (type: " ++ typeWord ctx a.channel.name ++ c!")\n"))) := by
  have hc : typeWord ctx a.channel.name = typeString ty := by simp only [typeWord, h1, Option.bind_some, h2]
  have h3 := ha.2.2.2.2.2.2.2.2.1
  block h with [outSay, Tree.say, hc, h3, hp]

set_option maxHeartbeats 4000000 in
theorem animateBody_blk (h : Env U v) {date name : Str} {m : Stm}
    {tc : TransitionContext} {ctx : CppConfig.Context} {first : Str} (g : GoodMain U date name m tc ctx first) :
    Blk (animateBody U tc ctx) (pSs (stmtsOf (Tree.mainBody U .animate tc ctx))) := by
  have b1 : Blk (if tc.out = [] then c!"\n    std::cout << \"  No outputs available for this test-case.\\n\";" else tc.out.flatMap (outSay ctx))
      (if tc.out = [] then pSt (Tree.say c!"  No outputs available for this test-case.\n") else _) :=
    Blk.ite (fun _ => by block h with [Tree.say]) (fun _ => Blk.flatMap tc.out fun a ha => by
      obtain ⟨t, ty, h1, h2, h3⟩ := g.types a ha
      exact outSay_blk h (g.outSets a ha).1 h1 h2 h3)
  have b2 := Blk.flatMap tc.out (f := outPick U ctx) fun a ha => by
    obtain ⟨t, ty, h1, h2, h3⟩ := g.types a ha
    exact outPick_blk h (g.outSets a ha).1 h1 h2
  have e1 : (fun a : AggregateSet => c!"\n    std::cout << \"  " ++ a.channel.name ++ c!" (type: " ++ typeWord ctx a.channel.name ++
    c!")\\n\";") = outSay ctx := rfl
  have e2 : (fun a : AggregateSet => c!"\n    else if (choice == \"" ++ a.channel.name ++ c!"\")\n    {\n      " ++
    cppTypeOf ctx a.channel.name ++
    c!" in;\n      std::cin >> in;\n\n      stm." ++ callbackName a.channel.name ++ c!"(" ++ convertTo U a.channel.name ++
    c!"(in));\n    }") = outPick U ctx := rfl
  have e3 : pSs (stmtsOf (if tc.out = [] then [Tree.say c!"  No outputs available for this test-case.\n"] else tc.out.map (fun a =>
      Tree.say (c!"  " ++ a.channel.name ++ c!" (type: " ++ typeWord ctx a.channel.name ++ c!")\n")))) =
      (if tc.out = [] then pSt (Tree.say c!"  No outputs available for this test-case.\n") else tc.out.flatMap (fun a =>
        pSt (Tree.say (c!"  " ++ a.channel.name ++ c!" (type: " ++ typeWord ctx a.channel.name ++ c!")\n")))) := by
    split
    · exact List.append_nil _
    · exact pSs_map _ _
  have e4 := pSt_choices (U := U) tc ctx
  have hv : ¬ Variant.animate = Variant.ros := by decide
  rw [animateBody, e1, e2, Tree.mainBody, if_neg hv, Tree.animateLoop, Tree.prompts]
  generalize (if tc.out = [] then c!"\n    std::cout << \"  No outputs available for this test-case.\\n\";" else tc.out.flatMap (outSay ctx)) = x1 at *
  generalize (if tc.out = [] then pSt (Tree.say c!"  No outputs available for this test-case.\n") else tc.out.flatMap (fun a =>
        pSt (Tree.say (c!"  " ++ a.channel.name ++ c!" (type: " ++ typeWord ctx a.channel.name ++ c!")\n")))) = y1 at *
  generalize (if tc.out = [] then [Tree.say c!"  No outputs available for this test-case.\n"] else tc.out.map (fun a =>
      Tree.say (c!"  " ++ a.channel.name ++ c!" (type: " ++ typeWord ctx a.channel.name ++ c!")\n"))) = z1 at *
  generalize tc.out.flatMap (outPick U ctx) = x2 at *
  generalize tc.out.flatMap (fun a => Tok.word c!"else" :: pIf (Tree.choiceIs a.channel.name) (Tree.outChoice U ctx a)) = y2 at *
  generalize Tree.choices U tc ctx = z2 at *
  cases h1 : tc.firstStateHasIn <;> cases h2 : tc.hasIn <;> rw [h1, h2] at e4 <;>
    exact ⟨NL.head rfl, fun rest hr => by
      lexing [hr, h1, h2, e3, e4, pSs_app, pSs_map, b1.run, b1.nl, b2.run, b2.nl, NL.app, NL.cons, pIf, Tree.choiceIs, Tree.statusIs, Tree.say,
        Tree.readS, Tree.getStatus, Tree.running, Bool.false_eq_true]⟩

end Lex

end Cpp

end Spec

end Rtcg
