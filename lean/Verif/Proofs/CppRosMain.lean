import Verif.Proofs.CppFinish

/-
Running the generated program: main, for ROS.
-/

namespace Rtcg

namespace Spec

namespace Cpp

namespace Sem

open Templates Rtcg.Cpp Tmpl Tree

section

variable {S : Src} {L : Lib} {fuel n : Nat} {st : St}

theorem execSs_app {C : Ctx} {a b : List Stmt} {st1 : St} {r : Cpp.Res Flow} (h : execSs C (stmtsOf a) st = .ok .next st1)
    (h' : execSs C (stmtsOf b) st1 = r) : execSs C (stmtsOf (a ++ b)) st = r := (execSs_append h).trans h'

theorem execSs_one {C : Ctx} {s : Stmt} {st1 : St} (h : execS C s st = .ok .next st1) : execSs C (stmtsOf [s]) st = .ok .next st1 := execSs_cons h

theorem execSs_wait {C : Ctx} {s : Stmt} {ss : Stmts} {st1 : St} (h : execS C s st = .wait st1) : execSs C (.cons s ss) st = .wait st1 := by
  rw [execSs, bind_eq]
  unfold M.bind
  rw [h]

theorem callFn_wait {q : List Str} {this : Option (List Str)} {args : List Val} {ps : List Param} {b : Stmts}
    {loc : List (Str × CType × Val)} {st' : St} (hf : S.prog.fn q = some (ps, b)) (hb : bindParams ps args = some loc)
    (hx : execSs (cx S L fuel n q this) b { st with loc := loc } = .wait st') :
    callFn S.prog L fuel (n + 1) q this args st = .wait { st' with loc := st.loc } := by
  rw [callFn]
  simp only [hf, hb]
  unfold framed
  have : ((execSs (cx S L fuel n q this) b).bind result) { st with loc := loc } = .wait st' := by
    unfold M.bind; rw [hx]
  unfold cx at this
  rw [this]

/-! ### advertising -/

theorem eval_num {C : Ctx} {w : Str} {k : Nat} (h : digits w = some k) : evalE C (.num w) st = .ok (.int k) st := by
  rw [evalE, h]
  rfl

theorem in_channel {a : AggregateSet} (h : a ∈ S.tc.in_) : ∃ s ∈ S.m.states, ∃ ts ∈ s.transitionSets, ts.channel = a.channel := by
  have hp := (C39_partition S.m).2.2.1
  unfold Src.tc at h
  rw [hp] at h
  have hm : a.channel ∈ S.m.aggregates.map (·.channel) := List.mem_map.2 ⟨a, (List.mem_filter.1 h).1, rfl⟩
  rw [(C38_aggregates S.m).1, mem_firstUses] at hm
  simpa only [List.mem_flatMap, List.mem_map] using hm

/-- The locals that advertising makes -/
def pubLocals (S : Src) (L : Lib) (l : List AggregateSet) : List (Str × CType × Val) :=
  (l.map (fun a => (publisherName S.U a.channel, auto, publisher L S.U a.channel))).reverse

theorem exec_advertise (hS : Setup S L) (hv : S.v = .ros) {a : AggregateSet} (ha : a ∈ S.tc.in_) {T : CType}
    (hl : getLocal st c!"nh" = some (T, node L)) :
    ∃ st', execS (cx S L fuel n [c!"main"] none) (advertise S.U a) st = .ok .next st' ∧ Goes S.v st st' [] false ∧ st'.mem = st.mem ∧
      st'.loc = (publisherName S.U a.channel, auto, publisher L S.U a.channel) :: st.loc := by
  obtain ⟨s, hs, ts, hts, hch⟩ := in_channel ha
  have hk := ((hS.lib.ros hv).2.2 s hs ts hts).1
  rw [hch] at hk
  let args : List Val := [node L, .str (topicName S.U a.channel), .int 1000]
  let e : Effect := .call [c!".advertise", channelValueType S.U a.channel.name] args
  let st1 : St := { st with eff := st.eff ++ [e] }
  have h : evalE (cx S L fuel n [c!"main"] none) (.post (nm c!"nh") (.dot c!"advertise" (.inst (ty [channelValueType S.U a.channel.name])
      (.call (argsOf [.str (topicName S.U a.channel), .num c!"1000"]) .nil)))) st = .ok (publisher L S.U a.channel) st1 := by
    rw [eval_dot, bind_ok (nm_local hl), evalS]
    simp only [bind_eq, evalA_argsOf]
    rw [bind_ok (evalList_cons eval_str (evalList_cons (eval_num (k := 1000) (by decide)) evalList_nil))]
    have e1 : Ctx.callMethod (cx S L fuel n [c!"main"] none) (node L) c!"advertise" [channelValueType S.U a.channel.name]
        [.str (topicName S.U a.channel), .int (1000 : Nat)] st = .ok (publisher L S.U a.channel) st1 := by
      unfold Ctx.callMethod Ctx.external node
      exact if_pos hk
    rw [show (ty [channelValueType S.U a.channel.name]).name = [channelValueType S.U a.channel.name] from rfl]
    rw [bind_ok e1, evalS]
    rfl
  refine ⟨_, execS_declEq h, ?_, rfl, rfl⟩
  exact (Goes.one (st := st) (e := e) (by rw [hv]; rfl) rfl).loc _

theorem exec_advertises (hS : Setup S L) (hv : S.v = .ros) (l : List AggregateSet) (hl : ∀ a ∈ l, a ∈ S.tc.in_) {T : CType}
    (hn : getLocal st c!"nh" = some (T, node L)) :
    ∃ st', execSs (cx S L fuel n [c!"main"] none) (stmtsOf (l.map (advertise S.U))) st = .ok .next st' ∧ Goes S.v st st' [] false ∧
      st'.mem = st.mem ∧ st'.loc = pubLocals S L l ++ st.loc := by
  induction l generalizing st with
  | nil => exact ⟨st, rfl, Goes.refl, rfl, rfl⟩
  | cons a l ih =>
    obtain ⟨st1, r1, g1, m1, l1⟩ := exec_advertise (n := n) (fuel := fuel) hS hv (hl a (List.mem_cons_self ..)) hn
    obtain ⟨st2, r2, g2, m2, l2⟩ := ih (fun a ha => hl a (List.mem_cons_of_mem _ ha)) (st := st1) (by
      have e : getLocal st1 c!"nh" = getLocal { st with loc := (publisherName S.U a.channel, auto, publisher L S.U a.channel) :: st.loc } c!"nh" :=
        getLocal_eq l1
      rw [e, getLocal_cons, if_neg]
      · exact hn
      · intro e
        have := pubName_last S.U a.channel
        rw [e] at this
        revert this; decide)
    refine ⟨st2, (execSs_cons r1).trans r2, g1.quiet g2, m2.trans m1, ?_⟩
    rw [l2, l1]
    unfold pubLocals
    simp

/-! ### locals of main -/

/-- Only names of publishers, subscribers and timers -/
def Aside (ls : List (Str × CType × Val)) : Prop := ∀ l ∈ ls, l.1.getLast? = some 'b' ∨ l.1.getLast? = some 'r'

theorem Aside.notMem {ls : List (Str × CType × Val)} (h : Aside ls) {x : Str} (hb : x.getLast? ≠ some 'b') (hr : x.getLast? ≠ some 'r') :
    x ∉ ls.map (·.1) := by
  intro hx
  obtain ⟨l, hl, rfl⟩ := List.mem_map.1 hx
  rcases h l hl with h | h
  · exact hb h
  · exact hr h

theorem pubLocals_aside (l : List AggregateSet) : Aside (pubLocals S L l) := by
  intro x hx
  unfold pubLocals at hx
  rw [List.mem_reverse] at hx
  obtain ⟨a, _, rfl⟩ := List.mem_map.1 hx
  exact .inl (pubName_last ..)

/-- The publishers, by name -/
theorem eval_pubs (hS : Setup S L) (hv : S.v = .ros) {rest : List (Str × CType × Val)} (hl : st.loc = pubLocals S L S.tc.in_ ++ rest)
    (l : List AggregateSet) (hl' : ∀ a ∈ l, a ∈ S.tc.in_) :
    evalList (cx S L fuel n [c!"main"] none) (l.map (fun a => nm (publisherName S.U a.channel))) st =
      .ok (l.map (fun a => publisher L S.U a.channel)) st := by
  induction l with
  | nil => rfl
  | cons a l ih =>
    refine evalList_cons (nm_local (l := (auto, publisher L S.U a.channel)) ?_) (ih (fun a ha => hl' a (List.mem_cons_of_mem _ ha)))
    unfold getLocal
    rw [hl, List.find?_append]
    unfold pubLocals
    rw [← List.map_reverse]
    have hnd : ((S.tc.in_.reverse).map (fun a => publisherName S.U a.channel)).Nodup := by
      rw [List.map_reverse, List.nodup_reverse]
      have := pub_nodup hS hv
      unfold pubField at this
      rw [List.nodup_iff_pairwise_ne, List.pairwise_map] at this ⊢
      exact this.imp (fun {a b} h e => h (by rw [e]))
    rw [find_named _ auto (fun a => publisherName S.U a.channel) (fun a => publisher L S.U a.channel) hnd
      (List.mem_reverse.2 (hl' a (List.mem_cons_self ..)))]
    rfl

/-! ### wiring -/

theorem eval_method_addr {f : Str} (h : (S.prog.fn [SM, f]).isSome = true) :
    evalE (cx S L fuel n [c!"main"] none) (method f) st = .ok (.addr [SM, f]) st := by
  unfold method
  rw [evalE, if_neg (by decide), if_neg (by decide)]
  show Ctx.address (cx S L fuel n [c!"main"] none) [SM, f] st = _
  unfold Ctx.address
  simp only [cx, h, if_true]

theorem eval_stmE {T : CType} {cls : List Str} (h : getLocal st c!"stm" = some (T, .obj machineAt cls)) :
    evalE (cx S L fuel n [c!"main"] none) stmE st = .ok (.addr machineAt) st := by
  unfold stmE
  rw [evalE, if_neg (by decide), if_neg (by decide)]
  show Ctx.address (cx S L fuel n [c!"main"] none) [c!"stm"] st = _
  unfold Ctx.address
  simp only [h]

/-- What main can see of the machine and the node -/
structure Sees (L : Lib) (st : St) : Prop where
  nh : ∃ T, getLocal st c!"nh" = some (T, node L)
  stm : ∃ T, getLocal st c!"stm" = some (T, .obj machineAt [SM])
  const : getLocal st c!"TIMEOUT_SEC" = none ∧ getLocal st c!"INPUT_DELAY_SEC" = none

theorem Sees.cons (h : Sees L st) {st' : St} {x : Str} {T : CType} {v : Val} (hl : st'.loc = (x, T, v) :: st.loc)
    (hx : x.getLast? = some 'b' ∨ x.getLast? = some 'r') : Sees L st' := by
  have e : ∀ y : Str, y.getLast? ≠ some 'b' → y.getLast? ≠ some 'r' → getLocal st' y = getLocal st y := by
    intro y h1 h2
    have : getLocal st' y = getLocal { st with loc := (x, T, v) :: st.loc } y := getLocal_eq hl
    rw [this, getLocal_cons, if_neg]
    rintro rfl
    rcases hx with hx | hx
    · exact h1 hx
    · exact h2 hx
  exact ⟨by rw [e _ (by decide) (by decide)]; exact h.nh, by rw [e _ (by decide) (by decide)]; exact h.stm,
    by rw [e _ (by decide) (by decide)]; exact h.const.1, by rw [e _ (by decide) (by decide)]; exact h.const.2⟩

/-- A statement that makes one effect and declares a variable -/
def Wires (S : Src) (L : Lib) (C : Ctx) (s : Stmt) (x : Str) (e : Effect) : Prop :=
  ∀ st, Sees L st → ∃ st', execS C s st = .ok .next st' ∧ Goes S.v st st' [] false ∧ st'.mem = st.mem ∧ e ∈ st'.eff ∧
    ∃ T v, st'.loc = (x, T, v) :: st.loc

theorem wires_subscribe (hS : Setup S L) (hv : S.v = .ros) {x topic f : Str} (hf : (S.prog.fn [SM, f]).isSome = true) :
    Wires S L (cx S L fuel n [c!"main"] none) (subscribe x topic f) x (subscription L topic f) := by
  intro st hs
  obtain ⟨T, hn⟩ := hs.nh
  obtain ⟨T', hm⟩ := hs.stm
  have h := eval_libMethod (f := c!"subscribe") (name_local hn) (evalList_cons (eval_str (s := topic)) (evalList_cons (eval_num (w := c!"10") (k := 10) (by decide))
    (evalList_cons (eval_method_addr (fuel := fuel) (n := n) hf) (evalList_cons (eval_stmE hm) evalList_nil)))) ((hS.lib.ros hv).2.1 ([c!".subscribe"], 5) (by decide))
  refine ⟨_, execS_declEq h, ?_, rfl, ?_, _, _, rfl⟩
  · exact (Goes.one (st := st) (e := subscription L topic f) (by rw [hv]; rfl) rfl).loc _
  · exact List.mem_append_right _ (List.mem_singleton.2 rfl)

theorem wires_timer (hS : Setup S L) (hv : S.v = .ros) {x k f : Str} {i : Nat} (hf : (S.prog.fn [SM, f]).isSome = true)
    (hk : k = c!"TIMEOUT_SEC" ∧ i = 15 ∨ k = c!"INPUT_DELAY_SEC" ∧ i = 3) :
    Wires S L (cx S L fuel n [c!"main"] none) (timer x k f) x (timerFor L i f) := by
  intro st hs
  obtain ⟨T, hn⟩ := hs.nh
  obtain ⟨T', hm⟩ := hs.stm
  have hc : evalE (cx S L fuel n [c!"main"] none) (nm k) st = .ok (.int i) st := by
    have hl : getLocal st k = none := by rcases hk with ⟨rfl, _⟩ | ⟨rfl, _⟩; exacts [hs.const.1, hs.const.2]
    have hg : (cx S L fuel n [c!"main"] none).global [k] = some (.int i) := by
      rw [global_eq]
      show (match ([[k]] : List (List Str)).findSome? (resolve S) with
        | some v => v
        | none => _) = _
      have he : S.prog.isEnum [k] = false := by rw [S.isEnum_prog]; simp
      have : resolve S [k] = some (some (.int i)) := by
        unfold resolve
        rw [he, S.var_prog]
        unfold constFacts
        rw [if_pos hv]
        rcases hk with ⟨rfl, rfl⟩ | ⟨rfl, rfl⟩ <;> rfl
      simp only [List.findSome?_cons, this]
    unfold nm
    rw [evalE]
    unfold Ctx.name Ctx.fieldOf
    simp only [hl, hg]
    rfl
  have hd : evalE (cx S L fuel n [c!"main"] none) (Tree.call [c!"ros", c!"Duration"] [nm k]) st = .ok (L.val [c!"ros", c!"Duration"] [.int i])
      { st with eff := st.eff ++ [.call [c!"ros", c!"Duration"] [.int i]] } :=
    call_lib2 (.inr ⟨_, rfl⟩) (evalList_cons hc evalList_nil) rfl (by decide) ((hS.lib.ros hv).2.1 ([c!"ros", c!"Duration"], 1) (by decide))
  let st1 : St := { st with eff := st.eff ++ [.call [c!"ros", c!"Duration"] [.int i]] }
  have h := eval_libMethod (st := st) (f := c!"createTimer") (name_local hn) (evalList_cons hd
    (evalList_cons (eval_method_addr (st := st1) (fuel := fuel) (n := n) hf) (evalList_cons (eval_stmE (st := st1) hm) evalList_nil)))
    ((hS.lib.ros hv).2.1 ([c!".createTimer"], 4) (by decide))
  refine ⟨_, execS_declEq h, ?_, rfl, ?_, _, _, rfl⟩
  · exact ((Goes.one (st := st) (e := .call [c!"ros", c!"Duration"] [.int i]) (by rw [hv]; rfl) rfl).quiet
      (Goes.one (st := st1) (e := timerFor L i f) (by rw [hv]; rfl) rfl)).loc _
  · exact List.mem_append_right _ (List.mem_singleton.2 rfl)

/-- Statements of this kind, one after the other -/
theorem exec_wires {C : Ctx} (l : List (Stmt × Str × Effect)) (hl : ∀ w ∈ l, Wires S L C w.1 w.2.1 w.2.2 ∧
      (w.2.1.getLast? = some 'b' ∨ w.2.1.getLast? = some 'r')) (hs : Sees L st) :
    ∃ st', execSs C (stmtsOf (l.map (·.1))) st = .ok .next st' ∧ Goes S.v st st' [] false ∧ st'.mem = st.mem ∧ Sees L st' ∧
      ∀ w ∈ l, w.2.2 ∈ st'.eff := by
  induction l generalizing st with
  | nil => exact ⟨st, rfl, Goes.refl, rfl, hs, by simp⟩
  | cons w l ih =>
    obtain ⟨h1, h2⟩ := hl w (List.mem_cons_self ..)
    obtain ⟨st1, r1, g1, m1, e1, T, v, l1⟩ := h1 st hs
    obtain ⟨st2, r2, g2, m2, s2, e2⟩ := ih (fun w hw => hl w (List.mem_cons_of_mem _ hw)) (hs.cons l1 h2)
    refine ⟨st2, (execSs_cons r1).trans r2, g1.quiet g2, m2.trans m1, s2, ?_⟩
    intro u hu
    rcases List.mem_cons.1 hu with rfl | hu
    · exact g2.mem e1
    · exact e2 u hu

theorem fn_some_of (hS : Setup S L) {x : Str} {i : Item} (h : (x, i) ∈ S.sm) : (S.prog.fn [SM, x]).isSome = true := by
  rw [fn_of hS h]; rfl

/-- The statements of main that wire the machine, the variables they declare and their effects -/
def wiring (S : Src) (L : Lib) : List (Stmt × Str × Effect) :=
  (if S.tc.hasIn then [(subscribe c!"input_accepted_sub" c!"input_accepted" c!"inputAcceptedCallback", c!"input_accepted_sub",
    subscription L c!"input_accepted" c!"inputAcceptedCallback")] else []) ++
  S.tc.out.map (fun a => (subscribe (subscriberName S.U a.channel) (topicName S.U a.channel) (callbackName a.channel.name),
    subscriberName S.U a.channel, subscription L (topicName S.U a.channel) (callbackName a.channel.name))) ++
  [(timer c!"timeout_timer" c!"TIMEOUT_SEC" c!"timeoutCallback", c!"timeout_timer", timerFor L 15 c!"timeoutCallback")] ++
  (if S.tc.firstStateHasIn then [(timer c!"initial_delay_timer" c!"INPUT_DELAY_SEC" c!"initialDelayCallback", c!"initial_delay_timer",
    timerFor L 3 c!"initialDelayCallback")] else [])

theorem wiring_init (hv : S.v = .ros) : Tree.init S.U S.v S.tc = (wiring S L).map (·.1) := by
  unfold Tree.init wiring
  rw [if_pos hv]
  simp only [List.map_append, List.map_map]
  congr 1
  · congr 1
    congr 1
    split <;> rfl
  · split <;> rfl

theorem subName_last (U : Unicode) (c : Channel) : (subscriberName U c).getLast? = some 'b' := by
  unfold subscriberName
  rw [List.getLast?_append]
  rfl

theorem wiring_wires (hS : Setup S L) (hv : S.v = .ros) : ∀ w ∈ wiring S L, Wires S L (cx S L fuel n [c!"main"] none) w.1 w.2.1 w.2.2 ∧
    (w.2.1.getLast? = some 'b' ∨ w.2.1.getLast? = some 'r') := by
  intro w hw
  unfold wiring at hw
  simp only [List.mem_append] at hw
  rcases hw with ((hw | hw) | hw) | hw
  · split at hw
    · rename_i h
      simp only [List.mem_singleton] at hw
      subst hw
      exact ⟨wires_subscribe hS hv (fn_some_of hS (mem_accepted h)), .inl rfl⟩
    · cases hw
  · obtain ⟨a, ha, rfl⟩ := List.mem_map.1 hw
    exact ⟨wires_subscribe hS hv (fn_some_of hS (mem_outItem ha)), .inl (subName_last ..)⟩
  · simp only [List.mem_singleton] at hw
    subst hw
    exact ⟨wires_timer (i := 15) hS hv (fn_some_of hS mem_timeout) (.inl ⟨rfl, rfl⟩), .inr rfl⟩
  · split at hw
    · rename_i h
      simp only [List.mem_singleton] at hw
      subst hw
      exact ⟨wires_timer (i := 3) hS hv (fn_some_of hS (mem_delay h)) (.inr ⟨rfl, rfl⟩), .inr rfl⟩
    · cases hw

theorem out_agg {ch : Channel} (hk : ch.kind ≠ kIn) (h : ∃ s ∈ S.m.states, ∃ ts ∈ s.transitionSets, ts.channel = ch) :
    ∃ a ∈ S.tc.out, a.channel = ch := by
  have hf := Harness.find_out S.m ch
  cases hfo : (TransitionContext.make S.m).out.find? (fun a => a.channel = ch) with
  | none =>
    rw [hfo] at hf
    exact absurd ⟨hk, h⟩ hf
  | some a =>
    rw [hfo] at hf
    exact ⟨a, List.mem_of_find?_eq_some hfo, hf.2.1⟩

theorem wired_of (h : ∀ w ∈ wiring S L, w.2.2 ∈ st.eff) : Wired L S.U S.m st := by
  unfold wiring at h
  simp only [List.mem_append] at h
  refine ⟨?_, ?_, ?_, ?_⟩
  · intro s hs ts hts hk
    obtain ⟨a, ha, e⟩ := out_agg hk ⟨s, hs, ts, hts, rfl⟩
    have := h _ (.inl (.inl (.inr (List.mem_map.2 ⟨a, ha, rfl⟩))))
    simp only [e] at this
    exact this
  · intro hi
    have hi : S.tc.hasIn = true := (C39_hasIn S.m).2.2 hi
    exact h (_, _, _) (.inl (.inl (.inl (by rw [if_pos hi]; exact List.mem_singleton.2 rfl))))
  · exact h (_, _, _) (.inl (.inr (List.mem_singleton.2 rfl)))
  · intro hi
    have hi : S.tc.firstStateHasIn = true := (C39_firstStateHasIn S.m).2 hi
    exact h (_, _, _) (.inr (by rw [if_pos hi]; exact List.mem_singleton.2 rfl))

theorem registered_sub {topic f : Str} {o : List Val} (h : subscription L topic f ∈ st.eff) : registered ⟨[SM, f], machineAt, o⟩ st = true := by
  unfold registered
  rw [List.any_eq_true]
  refine ⟨_, h, ?_⟩
  unfold subscription
  simp [SM]

theorem registered_timer {k : Int} {f : Str} {o : List Val} (h : timerFor L k f ∈ st.eff) : registered ⟨[SM, f], machineAt, o⟩ st = true := by
  unfold registered
  rw [List.any_eq_true]
  refine ⟨_, h, ?_⟩
  unfold timerFor
  simp [SM]

/-- Every callback of the machine has been given to ROS -/
theorem registered_of (h : Wired L S.U S.m st) {x : Harness.Callback × List Val} (hx : HasCallback S.m x.1) : registered (eventOf x) st = true := by
  obtain ⟨cb, args⟩ := x
  cases cb with
  | timeout => exact registered_timer h.timeout
  | start => exact registered_timer (h.delay hx)
  | accepted => exact registered_sub (h.accepted hx)
  | output ch y =>
    obtain ⟨⟨s, hs, ts, hts, e⟩, hk, _⟩ := hx
    subst e
    exact registered_sub (h.outputs s hs ts hts hk)

/-! ### spinning -/

theorem deliver_done {m : Stm} {c : Harness.Config} (h : c.status.isRunning = false) (l : List Harness.Callback) :
    l.foldl (Harness.deliver m) c = c := by
  induction l with
  | nil => rfl
  | cons x l ih =>
    rw [List.foldl_cons]
    have : Harness.deliver m c x = c := by unfold Harness.deliver; rw [h]; rfl
    rw [this, ih]

theorem isDown_goes {st' : St} {v : Variant} {a : List Effect} {d : Bool} (h : Goes v st st' a d) : isDown st' = (isDown st || d) := by
  obtain ⟨_, _, new, e1, _, e3⟩ := h
  unfold isDown
  rw [e1, List.any_append, e3]

theorem wired_more {st' : St} (h : Wired L S.U S.m st) (g : ∀ e ∈ st.eff, e ∈ st'.eff) : Wired L S.U S.m st' :=
  ⟨fun s hs ts hts hk => g _ (h.outputs s hs ts hts hk), fun hi => g _ (h.accepted hi), g _ h.timeout, fun hi => g _ (h.delay hi)⟩

theorem run_spin (hS : Setup S L) (hv : S.v = .ros) (xs : List (Harness.Callback × List Val))
    (hx : ∀ x ∈ xs, HasCallback S.m x.1 ∧ ArgsOf L S.U S.v x.1 x.2) {c : Harness.Config} (hc : Core S machineAt c st)
    (hP : Pubs S L machineAt st) (hw : Wired L S.U S.m st) (hd : isDown st = !c.status.isRunning) :
    ∃ st', Ctx.spin (cx S L fuel (n + 4) [c!"main"] none) (xs.map eventOf) st =
        (if ((xs.map (·.1)).foldl (Harness.deliver S.m) c).status.isRunning then .wait st' else .ok .void st') ∧
      Core S machineAt ((xs.map (·.1)).foldl (Harness.deliver S.m) c) st' ∧ Pubs S L machineAt st' ∧ st'.loc = st.loc ∧ st'.input = st.input ∧
      ∃ new sent, st'.eff = st.eff ++ new ∧ new.filter (isSend S.v) = sent.map (sendEffect L S.U S.v) ∧
        ((xs.map (·.1)).foldl (Harness.deliver S.m) c).sent = c.sent ++ sent := by
  induction xs generalizing st c with
  | nil =>
    refine ⟨st, ?_, hc, hP, rfl, rfl, [], [], by simp, rfl, by simp⟩
    show (if isDown st = true then Cpp.Res.ok Val.void st else .wait st) = _
    rw [hd]
    show _ = if c.status.isRunning = true then _ else _
    cases c.status.isRunning <;> rfl
  | cons x xs ih =>
    by_cases hr : c.status.isRunning = true
    · have hd' : isDown st = false := by rw [hd, hr]; rfl
      obtain ⟨hx1, hx2⟩ := hx x (List.mem_cons_self ..)
      let st0 : St := { st with events := xs.map eventOf }
      obtain ⟨st1, r1, c1, sy, sent, e1, s1⟩ := run_callback (st := st0) (n := n) (fuel := fuel) hS (hc.congr rfl) hP hx1 hx2
      have hdel : Harness.deliver S.m c x.1 = Harness.step S.m c x.1 := by unfold Harness.deliver; rw [if_pos hr]
      have hd1 : isDown st1 = !(Harness.step S.m c x.1).status.isRunning := by
        have : isDown st0 = false := hd'
        rw [isDown_goes s1.goes, this, hv, hr]
        simp
      have hP1 : Pubs S L machineAt st1 := Pubs.stay hS (st := st0) hP sy
      obtain ⟨n1, en1, f1, _⟩ := s1.eff
      obtain ⟨st2, r2, c2, p2, l2, i2, new, sent2, e2, f2, t2⟩ := ih (fun x hx' => hx x (List.mem_cons_of_mem _ hx')) c1 hP1
        (wired_more hw (by
          intro e he
          rw [en1]
          exact List.mem_append_left _ he)) hd1
      have hf : ((x :: xs).map (·.1)).foldl (Harness.deliver S.m) c = (xs.map (·.1)).foldl (Harness.deliver S.m) (Harness.step S.m c x.1) := by
        rw [List.map_cons, List.foldl_cons, hdel]
      rw [hf]
      refine ⟨st2, ?_, c2, p2, ?_, ?_, n1 ++ new, sent ++ sent2, ?_, ?_, ?_⟩
      · rw [List.map_cons, Ctx.spin]
        show (if isDown st = true then _ else if registered (eventOf x) st = true then _ else _ : Cpp.Res Val) = _
        rw [hd', registered_of hw hx1]
        show M.bind (callFn S.prog L fuel (n + 4) [SM, methodOf x.1] (some machineAt) x.2) _ st0 = _
        rw [bind_ok r1]
        exact r2
      · rw [l2, s1.loc]
      · rw [i2, s1.input]
      · rw [e2, en1, List.append_assoc]
      · rw [List.filter_append, f1, f2, List.map_append]
      · rw [t2, e1, List.append_assoc]
    · have hr' : c.status.isRunning = false := by simpa using hr
      rw [deliver_done hr', hr']
      refine ⟨st, ?_, hc, hP, rfl, rfl, [], [], by simp, rfl, by simp⟩
      rw [List.map_cons, Ctx.spin]
      show (if isDown st = true then _ else _ : Cpp.Res Val) = _
      rw [hd, hr']
      rfl

theorem bind_end {C : Ctx} (m : M Val) : M.bind m (fun v => evalS C v .nil) st = m st := by
  unfold M.bind
  cases m st with
  | ok v st => simp only [evalS]; rfl
  | wait => rfl
  | wrong => rfl

theorem eval_spin : evalE (cx S L fuel n [c!"main"] none) (Tree.call [c!"ros", c!"spin"] []) st =
    Ctx.spin (cx S L fuel n [c!"main"] none) st.events st := by
  unfold Tree.call
  rw [eval_named (by decide), evalA_argsOf, bind_ok evalList_nil, bind_end]
  have e : (cx S L fuel n [c!"main"] none).callName [c!"ros", c!"spin"] [] = fun st => (cx S L fuel n [c!"main"] none).spin st.events st := by
    unfold Ctx.callName
    have : (candidates (cx S L fuel n [c!"main"] none).scope [c!"ros", c!"spin"]).find?
        (fun c => ((cx S L fuel n [c!"main"] none).prog.fn c).isSome) = none := by
      show ([[c!"ros", c!"spin"]] : List (List Str)).find? (fun c => (S.prog.fn c).isSome) = none
      rw [List.find?_cons, S.fn_other (by simp) (by simp) (by simp) (by simp) (by simp [SM]) (by simp)]
      rfl
    simp only [this]
    exact if_pos trivial
  rw [e]

/-! ### main -/

theorem exec_object (hS : Setup S L) {es : List Expr} (he : evalList (cx S L fuel (n + 5) [c!"main"] none) es st = .ok (pubArgs S L) st) :
    ∃ st', execS (cx S L fuel (n + 5) [c!"main"] none) (.declBraces (ty [SM]) c!"stm" (argsOf es)) st = .ok .next st' ∧
      Core S machineAt (Harness.construct S.m) st' ∧ Pubs S L machineAt st' ∧ (Harness.construct S.m).sent = [] ∧
      Goes S.v st st' [] (decide (S.v = .ros) && !(Harness.construct S.m).status.isRunning) ∧
      st'.loc = (c!"stm", ty [SM], .obj machineAt [SM]) :: st.loc := by
  obtain ⟨st1, r1, c1, p1, e1, s1⟩ := make_machine (st := st) (fuel := fuel) (n := n) hS machineAt
  refine ⟨{ st1 with loc := (c!"stm", ty [SM], .obj machineAt [SM]) :: st1.loc }, ?_, c1.congr rfl, p1, e1, s1.goes.loc _, ?_⟩
  · rw [execS, evalA_argsOf, bind_eq, bind_ok he, bind_eq]
    have : Ctx.object (cx S L fuel (n + 5) [c!"main"] none) (ty [SM]) c!"stm" (pubArgs S L) st =
        .ok () { st1 with loc := (c!"stm", ty [SM], .obj machineAt [SM]) :: st1.loc } := by
      have hcls : Ctx.classOf (cx S L fuel (n + 5) [c!"main"] none) (ty [SM]).name = some [SM] := by
        show ([[SM]] : List (List Str)).find? (fun c => (S.prog.cls c).isSome) = _
        rw [List.find?_cons, S.cls_prog, if_neg (by decide), if_neg (by decide), if_pos rfl]
        rfl
      unfold Ctx.object
      simp only [hcls]
      show M.bind (makeObj S.prog L fuel (n + 5) [SM] machineAt (pubArgs S L)) _ st = _
      rw [bind_ok r1]
      rfl
    rw [bind_ok this]
    rfl
  · show _ :: st1.loc = _
    rw [s1.loc]

theorem main_body : bodyOf (mainItem S.U S.v S.name S.tc S.ctx) = stmtsOf (preInit S.U S.v S.name S.tc ++
    [.declBraces (ty [SM]) c!"stm" (argsOf (ctorArgs S.U S.v S.tc))] ++ Tree.init S.U S.v S.tc ++
      [logged S.U S.v c!"info" (.str (c!"Test " ++ S.name ++ c!" in main loop.")) []] ++ mainBody S.U S.v S.tc S.ctx ++ tailS S) := rfl

/-- Main, for ROS: the callbacks take the machine where `run` says; then, if the test has ended, main reports and returns the exit code. -/
theorem ros_main (hS : Setup S L) (hv : S.v = .ros) (xs : List (Harness.Callback × List Val))
    (hx : ∀ x ∈ xs, HasCallback S.m x.1 ∧ ArgsOf L S.U S.v x.1 x.2) (argc argv : Val) (input : List Str) :
    ∃ st', runMain S.prog L fuel (n + 6) [argc, argv] input (xs.map eventOf) =
        (if (Harness.run S.m (xs.map (·.1))).status.isRunning then .wait st'
         else .ok (.int (Harness.exitCode (Harness.run S.m (xs.map (·.1))))) st') ∧
      Core S machineAt (Harness.run S.m (xs.map (·.1))) st' ∧ Pubs S L machineAt st' ∧ Wired L S.U S.m st' ∧
      st'.eff.filter (isSend S.v) = (Harness.run S.m (xs.map (·.1))).sent.map (sendEffect L S.U S.v) ∧
      ((Harness.run S.m (xs.map (·.1))).status.isRunning = false →
        ∃ before, st'.eff = before ++ report S.U S.v S.name S.tests (Harness.run S.m (xs.map (·.1)))) := by
  let C := cx S L fuel (n + 5) [c!"main"] none
  let Ta : CType := ⟨false, [c!"char"], [c!"*", c!"*"]⟩
  let loc : List (Str × CType × Val) := [(c!"argc", ty [c!"int"], argc), (c!"argv", Ta, argv)]
  have hb : bindParams (mainParams S.v) [argc, argv] = some loc := by
    unfold mainParams
    rw [if_pos hv]
    rfl
  let st0 : St := { atStart input (xs.map eventOf) with loc := loc }
  -- ros::init
  let e1 : Effect := .call [c!"ros", c!"init"] [argc, argv, .str S.name]
  let st1 : St := { st0 with eff := st0.eff ++ [e1] }
  have r1 : execS C (.expr (Tree.call [c!"ros", c!"init"] [nm c!"argc", nm c!"argv", .str S.name])) st0 = .ok .next st1 := by
    refine execS_expr (call_lib2 (.inr ⟨_, rfl⟩) (evalList_cons (nm_local (l := (ty [c!"int"], argc)) rfl)
      (evalList_cons (nm_local (l := (Ta, argv)) rfl) evalList_one)) rfl (by decide) ((hS.lib.ros hv).2.1 ([c!"ros", c!"init"], 3) (by decide)))
  have g1 : Goes S.v st0 st1 [] false := Goes.one (by rw [hv]; rfl) rfl
  -- the node
  let st2 : St := { st1 with loc := (c!"nh", ty [c!"ros", c!"NodeHandle"], node L) :: st1.loc }
  have r2 : execS C (.decl (ty [c!"ros", c!"NodeHandle"]) c!"nh") st1 = .ok .next st2 := by
    have hcls : C.classOf (ty [c!"ros", c!"NodeHandle"]).name = none := classOf_none (.inr ⟨_, rfl⟩) ⟨_, _, rfl, by decide, by decide⟩
    have hi : initial C.lib (ty [c!"ros", c!"NodeHandle"]) = some (node L) := by
      unfold initial
      have hk : L.known [c!"ros", c!"NodeHandle"] = true := (hS.lib.ros hv).1 _ (by decide)
      show (if (ty [c!"ros", c!"NodeHandle"]).ptr ≠ [] then _ else if _ then _ else if _ then _ else if L.known [c!"ros", c!"NodeHandle"] then _ else _ : Option Val) = _
      rw [if_neg (by decide), if_neg (by decide), if_neg (by decide), if_pos hk]
      rfl
    have e : C.declare (ty [c!"ros", c!"NodeHandle"]) c!"nh" = addLocal c!"nh" (ty [c!"ros", c!"NodeHandle"]) (node L) := by
      unfold Ctx.declare
      simp only [hcls, hi]
    rw [execS, e]
    rfl
  have g2 : Goes S.v st0 st2 [] false := g1.loc _
  -- advertising
  obtain ⟨st3, r3, g3, m3, l3⟩ := exec_advertises (st := st2) (n := n + 5) (fuel := fuel) hS hv S.tc.in_ (fun _ h => h) (T := ty [c!"ros", c!"NodeHandle"]) rfl
  have p1 : execSs C (stmtsOf (preInit S.U S.v S.name S.tc)) st0 = .ok .next st3 := by
    unfold preInit
    rw [if_pos hv]
    exact execSs_app ((execSs_cons r1).trans (execSs_one r2)) r3
  -- the machine
  have hargs : evalList C (ctorArgs S.U S.v S.tc) st3 = .ok (pubArgs S L) st3 := by
    unfold ctorArgs pubArgs
    rw [if_pos hv, if_pos hv]
    exact eval_pubs hS hv l3 S.tc.in_ (fun _ h => h)
  obtain ⟨st4, r4, c4, pu4, se4, g4, l4⟩ := exec_object (n := n) (fuel := fuel) hS hargs
  have hs4 : Sees L st4 := by
    have hl : st4.loc = (c!"stm", ty [SM], .obj machineAt [SM]) :: (pubLocals S L S.tc.in_ ++ st2.loc) := by rw [l4, l3]
    have hg : ∀ x : Str, x.getLast? ≠ some 'b' → x.getLast? ≠ some 'r' → x ≠ c!"stm" → getLocal st4 x = getLocal st2 x := by
      intro x h1 h2 h3
      have e : getLocal st4 x = getLocal { st2 with loc := (c!"stm", ty [SM], .obj machineAt [SM]) :: (pubLocals S L S.tc.in_ ++ st2.loc) } x := getLocal_eq hl
      rw [e, getLocal_cons, if_neg h3.symm, getLocal_append ((pubLocals_aside _).notMem h1 h2)]
    refine ⟨⟨ty [c!"ros", c!"NodeHandle"], ?_⟩, ⟨ty [SM], ?_⟩, ?_, ?_⟩
    · rw [hg _ (by decide) (by decide) (by decide)]; rfl
    · have e : getLocal st4 c!"stm" = getLocal { st2 with loc := (c!"stm", ty [SM], .obj machineAt [SM]) :: (pubLocals S L S.tc.in_ ++ st2.loc) } c!"stm" := getLocal_eq hl
      rw [e, getLocal_cons, if_pos rfl]
    · rw [hg _ (by decide) (by decide) (by decide)]; rfl
    · rw [hg _ (by decide) (by decide) (by decide)]; rfl
  have p2 := execSs_app p1 (execSs_one r4)
  -- wiring
  obtain ⟨st5, r5, g5, m5, hs5, w5⟩ := exec_wires (S := S) (wiring S L) (wiring_wires (fuel := fuel) (n := n + 5) hS hv) hs4
  rw [← wiring_init hv] at r5
  have p3 := execSs_app p2 r5
  -- the log
  obtain ⟨st6, r6, s6, m6⟩ := exec_log (S := S) (fuel := fuel) (n := n + 5) (st := st5) (this := none) hS (shallow_main c!"main")
    (s := c!"Test " ++ S.name ++ c!" in main loop.") hS.info evalList_nil rfl
  have p4 := execSs_app p3 (execSs_one r6)
  have g6 : Goes S.v st0 st6 [] (decide (S.v = .ros) && !(Harness.construct S.m).status.isRunning) := by
    have := ((g2.quiet g3).quiet g4).trans (g5.quiet s6.goes)
    rwa [Bool.or_false, List.append_nil] at this
  have w6 : Wired L S.U S.m st6 := wired_of (fun w hw => s6.goes.mem (w5 w hw))
  have c6 : Core S machineAt (Harness.construct S.m) st6 := c4.congr (m6.trans m5)
  have pu6 : Pubs S L machineAt st6 := fun hv a ha => by rw [m6, m5]; exact pu4 hv a ha
  have hd6 : isDown st6 = !(Harness.construct S.m).status.isRunning := by
    rw [isDown_goes g6, hv]
    show (false || _) = _
    simp
  -- spinning
  obtain ⟨st7, r7, c7, pu7, l7, i7, new, sent, ef7, f7, t7⟩ := run_spin (n := n + 1) (fuel := fuel) hS hv xs hx c6 pu6 w6 hd6
  have e7 : (xs.map (·.1)).foldl (Harness.deliver S.m) (Harness.construct S.m) = Harness.run S.m (xs.map (·.1)) := rfl
  rw [e7] at r7 c7 t7
  have hev : st6.events = xs.map eventOf := g6.events
  have hspin : evalE C (Tree.call [c!"ros", c!"spin"] []) st6 = Ctx.spin C (xs.map eventOf) st6 := by rw [← hev]; exact eval_spin
  rw [r7] at hspin
  have hsends : st7.eff.filter (isSend S.v) = (Harness.run S.m (xs.map (·.1))).sent.map (sendEffect L S.U S.v) := by
    obtain ⟨_, _, n6, en6, fn6, _⟩ := g6
    have e0 : st0.eff = [] := rfl
    rw [ef7, en6, e0, List.nil_append, List.filter_append, fn6, f7, t7, se4]
    rfl
  have w7 : Wired L S.U S.m st7 := wired_more w6 (fun e he => by rw [ef7]; exact List.mem_append_left _ he)
  have hbody : mainBody S.U S.v S.tc S.ctx = [.expr (Tree.call [c!"ros", c!"spin"] [])] := if_pos hv
  by_cases hr : (Harness.run S.m (xs.map (·.1))).status.isRunning = true
  · rw [if_pos hr] at hspin
    have hw : execS C (.expr (Tree.call [c!"ros", c!"spin"] [])) st6 = .wait st7 := by
      rw [execS, bind_eq]
      unfold M.bind
      rw [hspin]
    have hall : execSs C (bodyOf (mainItem S.U S.v S.name S.tc S.ctx)) st0 = .wait st7 := by
      rw [main_body, hbody, List.append_assoc _ [_] (tailS S)]
      exact execSs_app p4 (execSs_wait hw)
    refine ⟨{ st7 with loc := [] }, ?_, c7.congr rfl, pu7, wired_more w7 (fun _ h => h), hsends, ?_⟩
    · rw [if_pos hr]
      exact callFn_wait S.fn_main hb hall
    · intro h
      rw [hr] at h
      cases h
  · have hr' : (Harness.run S.m (xs.map (·.1))).status.isRunning = false := by simpa using hr
    rw [if_neg hr] at hspin
    have p5 := execSs_app p4 (execSs_one (execS_expr hspin))
    have hl7 : ∃ T, getLocal st7 c!"stm" = some (T, .obj machineAt [SM]) := by
      obtain ⟨T, h⟩ := hs5.stm
      exact ⟨T, by rw [getLocal_eq (l7.trans s6.loc)]; exact h⟩
    obtain ⟨T, hl7⟩ := hl7
    obtain ⟨st8, r8, m8, i8, v8, e8⟩ := exec_tail (n := n + 4) (fuel := fuel) (f := c!"main") hS hl7 c7
    have hall : execSs C (bodyOf (mainItem S.U S.v S.name S.tc S.ctx)) st0 =
        .ok (.ret (.int (Harness.run S.m (xs.map (·.1))).status.exitCode)) st8 := by
      rw [main_body, hbody]
      exact execSs_app p5 r8
    refine ⟨{ st8 with loc := [] }, ?_, c7.congr m8, ?_, wired_more w7 (fun e h => ?_), ?_, ?_⟩
    · rw [if_neg hr]
      exact callFn_run S.fn_main hb hall rfl
    · intro hv a ha
      show st8.mem _ = _
      rw [m8]
      exact pu7 hv a ha
    · show e ∈ st8.eff
      rw [e8]
      exact List.mem_append_left _ h
    · show st8.eff.filter _ = _
      rw [e8, List.filter_append, hsends]
      have : (report S.U S.v S.name S.tests (Harness.run S.m (xs.map (·.1)))).filter (isSend S.v) = [] := by
        rw [List.filter_eq_nil_iff]
        intro e he
        unfold report at he
        rw [List.mem_append] at he
        rcases he with he | he
        · simp only [List.mem_cons, List.not_mem_nil, or_false] at he
          rcases he with rfl | rfl
          · rw [(logEff_quiet rfl).1]; simp
          · rw [(logEff_quiet rfl).1]; simp
        · obtain ⟨t, _, rfl⟩ := List.mem_map.1 he
          rw [(logEff_quiet rfl).1]
          simp
      rw [this, List.append_nil]
    · intro _
      exact ⟨st7.eff, e8⟩

end

end Sem

end Cpp

end Spec

end Rtcg
