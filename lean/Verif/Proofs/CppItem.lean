import Verif.Proofs.CppParse

/-
The items of a file as tokens, and that the parser finds them again.
-/

namespace Rtcg

namespace Spec

namespace Cpp

namespace Parse

/-! ### printing -/

def pParam (p : Param) : List Tok := pType p.1 ++ [.word p.2]

def pParams : List Param → List Tok
  | [] => []
  | [p] => pParam p
  | p :: ps => pParam p ++ .op c!"," :: pParams ps

def pBase : Option (List Str) → List Tok
  | none => []
  | some b => .op c!":" :: .word c!"public" :: pq b

def pBody : Option Stmts → List Tok
  | none => [.op c!";"]
  | some b => .op c!"{" :: (pSs b ++ [.op c!"}"])

/-- The type in front of a function or nothing, for a constructor -/
def pTypeOpt : Option CType → List Tok
  | none => []
  | some t => pType t

def pMembers (ms : List Str) : List Tok := ms.flatMap (fun m => [.word m, .op c!","])

def pItem : Item → List Tok
  | .nsOpen n => [.word c!"namespace", .word n, .op c!"{"]
  | .nsClose => [.op c!"}"]
  | .clsOpen n b => .word c!"class" :: .word n :: (pBase b ++ [.op c!"{"])
  | .clsClose => [.op c!"}", .op c!";"]
  | .access w => [.word w, .op c!":"]
  | .enum n ms => .word c!"enum" :: .word c!"class" :: .word n :: .op c!"{" :: (pMembers ms ++ [.op c!"}", .op c!";"])
  | .fn t q ps b => pTypeOpt t ++ (pq q ++ .op c!"(" :: (pParams ps ++ .op c!")" :: pBody b))
  | .var t x none => pType t ++ [.word x, .op c!";"]
  | .var t x (some e) => pType t ++ .word x :: .op c!"=" :: (pE e ++ [.op c!";"])

def pItems (is : List Item) : List Tok := is.flatMap pItem

/-! ### what is printed has no directives -/

/-- No directives -/
def NoDir (ts : List Tok) : Prop := ∀ t ∈ ts, isDir t = false

theorem noDir_app {a b : List Tok} : NoDir (a ++ b) ↔ NoDir a ∧ NoDir b := by
  simp only [NoDir, List.mem_append, or_imp, forall_and]

theorem noDir_cons {t : Tok} {ts : List Tok} : NoDir (t :: ts) ↔ isDir t = false ∧ NoDir ts := by
  simp only [NoDir, List.mem_cons, or_imp, forall_and, forall_eq]

theorem noDir_nil : NoDir [] := fun _ h => nomatch h

theorem qrest_noDir : (q : List Str) → NoDir (qrest q)
  | [] => noDir_nil
  | _ :: q => noDir_cons.2 ⟨rfl, noDir_cons.2 ⟨rfl, qrest_noDir q⟩⟩

theorem pq_noDir : (q : List Str) → NoDir (pq q)
  | [] => noDir_nil
  | _ :: q => noDir_cons.2 ⟨rfl, qrest_noDir q⟩

theorem pType_noDir (t : CType) : NoDir (pType t) := by
  unfold pType pTypeName
  refine noDir_app.2 ⟨?_, noDir_app.2 ⟨?_, ?_⟩⟩
  · split
    · exact noDir_cons.2 ⟨rfl, noDir_nil⟩
    · exact noDir_nil
  · split
    · exact noDir_cons.2 ⟨rfl, noDir_cons.2 ⟨rfl, noDir_nil⟩⟩
    · exact pq_noDir _
  · intro t ht
    obtain ⟨o, _, rfl⟩ := List.mem_map.1 ht
    rfl

mutual

theorem pE_noDir : (e : Expr) → NoDir (pE e)
  | .name q => pq_noDir q
  | .str _ => noDir_cons.2 ⟨rfl, noDir_nil⟩
  | .num _ => noDir_cons.2 ⟨rfl, noDir_nil⟩
  | .bool _ => noDir_cons.2 ⟨rfl, noDir_nil⟩
  | .post e s => noDir_app.2 ⟨pE_noDir e, pS_noDir s⟩
  | .un _ e => noDir_cons.2 ⟨rfl, pE_noDir e⟩
  | .shift e t => noDir_app.2 ⟨pE_noDir e, pT_noDir t⟩
  | .eq _ a b => noDir_app.2 ⟨pE_noDir a, noDir_cons.2 ⟨rfl, pE_noDir b⟩⟩
  | .and a b => noDir_app.2 ⟨pE_noDir a, noDir_cons.2 ⟨rfl, pE_noDir b⟩⟩
  | .assign a b => noDir_app.2 ⟨pE_noDir a, noDir_cons.2 ⟨rfl, pE_noDir b⟩⟩

theorem pS_noDir : (s : Suf) → NoDir (pS s)
  | .nil => noDir_nil
  | .dot _ s => noDir_cons.2 ⟨rfl, noDir_cons.2 ⟨rfl, pS_noDir s⟩⟩
  | .arrow _ s => noDir_cons.2 ⟨rfl, noDir_cons.2 ⟨rfl, pS_noDir s⟩⟩
  | .inst t s => noDir_cons.2 ⟨rfl, noDir_app.2 ⟨pType_noDir t, noDir_cons.2 ⟨rfl, pS_noDir s⟩⟩⟩
  | .call a s => noDir_cons.2 ⟨rfl, noDir_app.2 ⟨pA_noDir a, noDir_cons.2 ⟨rfl, pS_noDir s⟩⟩⟩

theorem pA_noDir : (a : Args) → NoDir (pA a)
  | .nil => noDir_nil
  | .cons e .nil => pE_noDir e
  | .cons e (.cons e' a) => noDir_app.2 ⟨pE_noDir e, noDir_cons.2 ⟨rfl, pA_noDir (.cons e' a)⟩⟩

theorem pT_noDir : (t : Tail) → NoDir (pT t)
  | .nil => noDir_nil
  | .cons _ e t => noDir_cons.2 ⟨rfl, noDir_app.2 ⟨pE_noDir e, pT_noDir t⟩⟩

end

mutual

theorem pSt_noDir : (s : Stmt) → NoDir (pSt s)
  | .skip => noDir_nil
  | .expr e => noDir_app.2 ⟨pE_noDir e, noDir_cons.2 ⟨rfl, noDir_nil⟩⟩
  | .decl t _ => by simp only [pSt, noDir_app, noDir_cons, noDir_nil, pType_noDir, isDir, and_self]
  | .declEq t _ e => by simp only [pSt, noDir_app, noDir_cons, noDir_nil, pType_noDir, pE_noDir, isDir, and_self]
  | .declBraces t _ a => by simp only [pSt, noDir_app, noDir_cons, noDir_nil, pType_noDir, pA_noDir, isDir, and_self]
  | .ret => by simp only [pSt, noDir_cons, noDir_nil, isDir, and_self]
  | .retVal e => by simp only [pSt, noDir_app, noDir_cons, noDir_nil, pE_noDir, isDir, and_self]
  | .brk => by simp only [pSt, noDir_cons, noDir_nil, isDir, and_self]
  | .ite c a b => by
    have ha := pSt_noDir a
    have hb := pSt_noDir b
    rw [pSt.eq_def]
    split <;> simp_all only [noDir_app, noDir_cons, noDir_nil, pE_noDir, isDir, and_self, reduceCtorEq, Stmt.ite.injEq]
  | .switch e b => by
    have hb := pSs_noDir b
    simp only [pSt, noDir_app, noDir_cons, noDir_nil, pE_noDir, hb, isDir, and_self]
  | .case e => by simp only [pSt, noDir_app, noDir_cons, noDir_nil, pE_noDir, isDir, and_self]
  | .dflt => by simp only [pSt, noDir_cons, noDir_nil, isDir, and_self]
  | .block b => by
    have hb := pSs_noDir b
    simp only [pSt, noDir_app, noDir_cons, noDir_nil, hb, isDir, and_self]
  | .loop t _ e c s b => by
    have hb := pSt_noDir b
    simp only [pSt, noDir_app, noDir_cons, noDir_nil, pType_noDir, pE_noDir, hb, isDir, and_self]

theorem pSs_noDir : (ss : Stmts) → NoDir (pSs ss)
  | .nil => noDir_nil
  | .cons s ss => noDir_app.2 ⟨pSt_noDir s, pSs_noDir ss⟩

end

theorem pParam_noDir (p : Param) : NoDir (pParam p) := noDir_app.2 ⟨pType_noDir _, noDir_cons.2 ⟨rfl, noDir_nil⟩⟩

theorem pParams_noDir : (ps : List Param) → NoDir (pParams ps)
  | [] => noDir_nil
  | [p] => pParam_noDir p
  | p :: p' :: ps => noDir_app.2 ⟨pParam_noDir p, noDir_cons.2 ⟨rfl, pParams_noDir (p' :: ps)⟩⟩

theorem pItem_noDir : (i : Item) → NoDir (pItem i)
  | .nsOpen _ => by simp only [pItem, noDir_cons, noDir_nil, isDir, and_self]
  | .nsClose => by simp only [pItem, noDir_cons, noDir_nil, isDir, and_self]
  | .clsOpen _ b => by cases b <;> simp only [pItem, pBase, noDir_app, noDir_cons, noDir_nil, pq_noDir, isDir, and_self]
  | .clsClose => by simp only [pItem, noDir_cons, noDir_nil, isDir, and_self]
  | .access _ => by simp only [pItem, noDir_cons, noDir_nil, isDir, and_self]
  | .enum _ ms => by
    have h : NoDir (pMembers ms) := by
      induction ms with
      | nil => exact noDir_nil
      | cons m ms ih => exact noDir_cons.2 ⟨rfl, noDir_cons.2 ⟨rfl, ih⟩⟩
    simp only [pItem, noDir_app, noDir_cons, noDir_nil, h, isDir, and_self]
  | .fn t q ps b => by
    cases t <;> cases b <;>
      simp only [pItem, pTypeOpt, pBody, noDir_app, noDir_cons, noDir_nil, pType_noDir, pq_noDir, pParams_noDir, pSs_noDir, isDir, and_self]
  | .var t x none => by simp only [pItem, noDir_app, noDir_cons, noDir_nil, pType_noDir, isDir, and_self]
  | .var t x (some e) => by simp only [pItem, noDir_app, noDir_cons, noDir_nil, pType_noDir, pE_noDir, isDir, and_self]

theorem pItems_noDir (is : List Item) : NoDir (pItems is) := by
  intro t ht
  obtain ⟨i, _, ht⟩ := List.mem_flatMap.1 ht
  exact pItem_noDir i t ht

/-! ### items that can be printed -/

def OkItem : Item → Prop
  | .nsOpen n => isIdent n = true
  | .nsClose => True
  | .clsOpen n b => isIdent n = true ∧ ∀ q, b = some q → OkQ q
  | .clsClose => True
  | .access w => w = c!"public" ∨ w = c!"private" ∨ w = c!"protected"
  | .enum n ms => isIdent n = true ∧ ∀ m ∈ ms, isIdent m = true
  | .fn t q ps b => (∀ t', t = some t' → OkType t') ∧ OkQ q ∧ (∀ p ∈ ps, OkType p.1 ∧ isIdent p.2 = true) ∧ ∀ ss, b = some ss → OkSs ss
  | .var t x e => OkType t ∧ isIdent x = true ∧ ∀ e', e = some e' → OkE e'

/-! ### they come back -/

theorem params_print (ps : List Param) (h : ∀ p ∈ ps, OkType p.1 ∧ isIdent p.2 = true) (rest : List Tok) (n : Nat)
    (hn : (pParams ps).length + 1 ≤ n) : params n (pParams ps ++ .op c!")" :: rest) = some (ps, rest) := by
  induction ps generalizing n with
  | nil =>
    obtain ⟨n, rfl⟩ : ∃ m, n = m + 1 := ⟨n - 1, by omega⟩
    rfl
  | cons p ps ih =>
    obtain ⟨n, rfl⟩ : ∃ m, n = m + 1 := ⟨n - 1, by omega⟩
    obtain ⟨ht, hx⟩ := h p (by simp)
    cases ps with
    | nil =>
      have h1 := type_print ht (rest := .word p.2 :: .op c!")" :: rest) rfl rfl rfl
      simp only [pParams, pParam, List.append_assoc, List.cons_append, List.nil_append, params, type_not_op ht, h1, ident_word hx,
        bind, Option.bind, next_op, expect_cons]
      rfl
    | cons p' ps =>
      have hp : pParams (p :: p' :: ps) = pParam p ++ .op c!"," :: pParams (p' :: ps) := rfl
      rw [hp] at hn ⊢
      simp only [List.length_append, List.length_cons, pParam] at hn
      have ih := ih (fun q hq => h q (List.mem_cons_of_mem _ hq)) n (by omega)
      have h1 := type_print ht (rest := .word p.2 :: .op c!"," :: (pParams (p' :: ps) ++ .op c!")" :: rest)) rfl rfl rfl
      have hne : next (.op c!")") (pParams (p' :: ps) ++ .op c!")" :: rest) = false := by
        have ht' := (h p' (by simp)).1
        cases ps with
        | nil =>
          show next _ ((pType p'.1 ++ [.word p'.2]) ++ _) = false
          rw [List.append_assoc]; exact type_not_op ht' _ _
        | cons p'' ps =>
          show next _ (((pType p'.1 ++ [.word p'.2]) ++ _) ++ _) = false
          rw [List.append_assoc, List.append_assoc]; exact type_not_op ht' _ _
      simp only [pParam, List.append_assoc, List.cons_append, List.nil_append, params, type_not_op ht, h1, ident_word hx,
        bind, Option.bind, next_op, List.tail_cons, hne, ih]
      rfl

theorem members_print (ms : List Str) (h : ∀ m ∈ ms, isIdent m = true) (rest : List Tok) (n : Nat) (hn : (pMembers ms).length + 1 ≤ n) :
    members n (pMembers ms ++ .op c!"}" :: rest) = some (ms, rest) := by
  induction ms generalizing n with
  | nil =>
    obtain ⟨n, rfl⟩ : ∃ m, n = m + 1 := ⟨n - 1, by omega⟩
    rfl
  | cons m ms ih =>
    obtain ⟨n, rfl⟩ : ∃ m, n = m + 1 := ⟨n - 1, by omega⟩
    have hp : pMembers (m :: ms) = .word m :: .op c!"," :: pMembers ms := rfl
    rw [hp] at hn ⊢
    simp only [List.length_cons] at hn
    have ih := ih (fun q hq => h q (List.mem_cons_of_mem _ hq)) n (by omega)
    simp only [List.cons_append, members, next_op_word, ident_word (h m (by simp)), bind, Option.bind, next_op, List.tail_cons, ih]
    rfl

theorem fnRest_print (t : Option CType) (q : List Str) (ps : List Param) (b : Option Stmts)
    (hps : ∀ p ∈ ps, OkType p.1 ∧ isIdent p.2 = true) (hb : ∀ ss, b = some ss → OkSs ss) (rest : List Tok) (n : Nat)
    (hn : 16 * (pParams ps).length + 16 * (pBody b).length + 1 ≤ n) :
    fnRest n t q (.op c!"(" :: (pParams ps ++ .op c!")" :: (pBody b ++ rest))) = some (.fn t q ps b, rest) := by
  have h1 := params_print ps hps (pBody b ++ rest) n (by omega)
  cases b with
  | none =>
    simp only [fnRest, expect_cons, h1, bind, Option.bind]
    rfl
  | some ss =>
    simp only [pBody, List.length_append, List.length_cons, List.length_nil] at hn
    have h2 := stmts_print ss (hb ss rfl) rest n (by omega)
    simp only [pBody, List.append_assoc, List.cons_append, List.nil_append] at h1
    simp only [fnRest, expect_cons, h1, bind, Option.bind, pBody, List.append_assoc, List.cons_append, List.nil_append, next_op,
      List.tail_cons, h2]
    rfl

theorem fnName_print {q : List Str} (hq : OkQ q) (rest : List Tok) :
    fnName (pq q ++ .op c!"(" :: rest) = some (q, .op c!"(" :: rest) := by
  have h := qname_print hq (rest := .op c!"(" :: rest) rfl
  obtain ⟨h1, h2⟩ := hq
  have hf : fnName (pq q ++ .op c!"(" :: rest) = qname (pq q ++ .op c!"(" :: rest) := by
    cases q with
    | nil => exact absurd rfl h1
    | cons w q =>
      have hw : w ≠ c!"operator" := ident_not (h2 w (by simp)) (by decide)
      cases q with
      | nil => show fnName (.word w :: .op c!"(" :: rest) = _; rw [fnName, if_neg hw]; rfl
      | cons w' q =>
        show fnName (.word w :: .op c!"::" :: .word w' :: (qrest q ++ .op c!"(" :: rest)) = _
        rw [fnName, if_neg hw]; rfl
  rw [hf, h]

theorem fnName_word {x : Str} (hx : isIdent x = true) {o : Str} (ho : o ≠ c!"::") (rest : List Tok) :
    fnName (.word x :: .op o :: rest) = some ([x], .op o :: rest) := by
  have hw : x ≠ c!"operator" := ident_not hx (by decide)
  have h := qname_print (q := [x]) ⟨by simp, by simpa using hx⟩ (rest := .op o :: rest) (by rw [next_op]; simpa using ho)
  rw [fnName, if_neg hw]
  exact h

/-- What follows a type is no `(` -/
def NotCall (r : List Tok) : Prop := next (.op c!"(") r = false

theorem declItem_typed {n : Nat} {t : CType} (ht : OkType t) {x : Str} (r : List Tok) :
    declItem n (pType t ++ .word x :: r) = declItem.typed n (pType t ++ .word x :: r) := by
  have key : ∀ q r', qname (pType t ++ .word x :: r) = some (q, r') → next (.op c!"(") r' = false := by
    obtain ⟨c, q, l⟩ := t
    cases c with
    | true =>
      intro q' r' h
      have : qname (pType ⟨true, q, l⟩ ++ .word x :: r) = none := rfl
      rw [this] at h; cases h
    | false =>
      intro q' r' h
      rcases ht.1 with hq | ⟨w, hw, hq⟩ | hq
      · simp only at hq; subst hq
        have : qname (pType ⟨false, [c!"unsigned int"], l⟩ ++ .word x :: r) = none := rfl
        rw [this] at h; cases h
      · simp only at hq; subst hq
        have hp : pType ⟨false, [w], l⟩ = .word w :: l.map .op := by
          have : w ≠ c!"unsigned int" := by rintro rfl; exact absurd hw (by decide)
          simp [pType, pTypeName, this, pq, qrest]
        have hw' : isIdent w = false := by
          cases hi : isIdent w with
          | false => rfl
          | true => exact absurd rfl (ident_not hi ((by decide : ∀ b ∈ builtin, b ∈ keywords) w hw))
        rw [hp] at h
        simp [qname, ident, hw'] at h
      · simp only at hq
        have hp : pType ⟨false, q, l⟩ = pq q ++ l.map .op := by
          have : q ≠ [c!"unsigned int"] := by
            rintro rfl
            exact absurd (hq.2 c!"unsigned int" (by simp)) (by decide)
          simp [pType, pTypeName, this]
        have hl := ht.2
        simp only at hl
        have hn : next (.op c!"::") (l.map .op ++ .word x :: r) = false := by
          cases l with
          | nil => rfl
          | cons o l => rcases hl o (by simp) with rfl | rfl <;> rfl
        rw [hp, List.append_assoc, qname_print hq hn] at h
        simp only [Option.some.injEq, Prod.mk.injEq] at h
        rw [← h.2]
        cases l with
        | nil => rfl
        | cons o l => rcases hl o (by simp) with rfl | rfl <;> rfl
  rw [declItem]
  cases hq : qname (pType t ++ .word x :: r) with
  | none => rfl
  | some qr =>
    obtain ⟨q, r'⟩ := qr
    simp only [key q r' hq, Bool.false_eq_true, if_false]

/-- The words an item may start with that are no declarations -/
def openers : List Str := [c!"namespace", c!"enum", c!"class", c!"public", c!"private", c!"protected"]

theorem item_decl {n : Nat} {w : Str} {r : List Tok} (hw : w ∉ openers) : item n (.word w :: r) = declItem n (.word w :: r) := by
  have h : ∀ k ∈ openers, next (.word k) (.word w :: r) = false := by
    intro k hk
    rw [next_word, decide_eq_false_iff_not]
    rintro rfl
    exact hw hk
  rw [item]
  simp only [h c!"namespace" (by decide), h c!"enum" (by decide), h c!"class" (by decide), h c!"public" (by decide),
    h c!"private" (by decide), h c!"protected" (by decide), next_op_word, Bool.false_eq_true, if_false, Bool.or_false]

theorem type_not_opener {t : CType} (h : OkType t) : ∃ w r, pType t = .word w :: r ∧ w ∉ openers := by
  obtain ⟨v, r, hv, h⟩ := pType_head h
  refine ⟨v, r, hv, ?_⟩
  intro hw
  rcases h with h | h
  · exact ident_not h ((by decide : ∀ x ∈ openers, x ∈ keywords) v hw) rfl
  · exact (by decide : ∀ x ∈ openers, x ∉ [c!"const", c!"unsigned"] ++ builtin) v hw h

theorem pq_first {q : List Str} (hq : OkQ q) : ∃ w r, pq q = .word w :: r ∧ isIdent w = true := by
  cases q with
  | nil => exact absurd rfl hq.1
  | cons w q => exact ⟨w, qrest q, rfl, hq.2 w (by simp)⟩

theorem item_print (i : Item) (h : OkItem i) (rest : List Tok) (hr : i = .nsClose → next (.op c!";") rest = false) (n : Nat)
    (hn : 16 * (pItem i).length ≤ n) : item n (pItem i ++ rest) = some (i, rest) := by
  cases i with
  | nsOpen x =>
    simp only [OkItem] at h
    simp only [pItem, List.cons_append, List.nil_append, item, next_word, List.tail_cons, ident_word h, bind, Option.bind, expect_cons]
    rfl
  | nsClose =>
    simp only [pItem, List.cons_append, List.nil_append, item, next_op, next_word_op, List.tail_cons, hr rfl]
    rfl
  | clsOpen x b =>
    simp only [OkItem] at h
    cases b with
    | none =>
      simp only [pItem, pBase, List.cons_append, List.nil_append, item, next_word, next_op, next_op_word, List.tail_cons,
        ident_word h.1, bind, Option.bind, expect_cons]
      rfl
    | some q =>
      have hq := qname_print (h.2 q rfl) (rest := .op c!"{" :: rest) rfl
      simp only [pItem, pBase, List.cons_append, List.append_assoc, List.nil_append, item, next_word, next_op, next_op_word,
        List.tail_cons, ident_word h.1, bind, Option.bind, expect_cons, hq]
      rfl
  | clsClose => rfl
  | access w =>
    simp only [OkItem] at h
    rcases h with rfl | rfl | rfl <;> rfl
  | enum x ms =>
    simp only [OkItem] at h
    simp only [pItem, List.length_append, List.length_cons] at hn
    have hm := members_print ms h.2 (.op c!";" :: rest) n (by omega)
    simp only [pItem, List.cons_append, List.append_assoc, List.nil_append, item, next_word, next_op_word,
      List.tail_cons, ident_word h.1, bind, Option.bind, expect_cons, hm]
    rfl
  | fn t q ps b =>
    obtain ⟨h1, h2, h3, h4⟩ := h
    simp only [pItem, List.length_append, List.length_cons] at hn
    obtain ⟨w, qr, hw, hwi⟩ := pq_first h2
    have hfr := fnRest_print t q ps b h3 h4 rest n (by omega)
    have hnm := qname_print h2 (rest := .op c!"(" :: (pParams ps ++ .op c!")" :: (pBody b ++ rest))) rfl
    have hfn := fnName_print h2 (pParams ps ++ .op c!")" :: (pBody b ++ rest))
    have hassoc : pItem (.fn t q ps b) ++ rest =
        pTypeOpt t ++ (pq q ++ .op c!"(" :: (pParams ps ++ .op c!")" :: (pBody b ++ rest))) := by
      simp only [pItem, List.append_assoc, List.cons_append]
    rw [hassoc]
    cases t with
    | none =>
      have hwo : w ∉ openers := fun hm => ident_not hwi ((by decide : ∀ x ∈ openers, x ∈ keywords) w hm) rfl
      show item n (pq q ++ _) = _
      rw [hw, List.cons_append, item_decl hwo, ← List.cons_append, ← hw, declItem, hnm]
      simp only [next_op, decide_true, if_true]
      exact hfr
    | some t =>
      have ht := h1 t rfl
      obtain ⟨v, r, hv, hvo⟩ := type_not_opener ht
      have hty := type_print ht (rest := .word w :: (qr ++ .op c!"(" :: (pParams ps ++ .op c!")" :: (pBody b ++ rest)))) rfl rfl rfl
      have hfn' := hfn
      rw [hw, List.cons_append] at hfn'
      show item n (pType t ++ _) = _
      rw [hv, List.cons_append, item_decl hvo, ← List.cons_append, ← hv, hw, List.cons_append, declItem_typed ht, declItem.typed, hty]
      simp only [bind, Option.bind, hfn', next_op, decide_true, if_true]
      exact hfr
  | var t x e =>
    obtain ⟨ht, hx, he⟩ := h
    obtain ⟨v, r, hv, hvo⟩ := type_not_opener ht
    cases e with
    | none =>
      have hty := type_print ht (rest := .word x :: .op c!";" :: rest) rfl rfl rfl
      simp only [pItem, List.append_assoc, List.cons_append, List.nil_append]
      rw [hv, List.cons_append, item_decl hvo, ← List.cons_append, ← hv, declItem_typed ht, declItem.typed, hty]
      simp only [bind, Option.bind, fnName_word hx (o := c!";") (by decide), next_op, expect_cons]
      rfl
    | some e =>
      simp only [pItem, List.length_append, List.length_cons] at hn
      have hE := expr_print (he e rfl) (Nat.zero_le _) (Nat.zero_le _) (rest := .op c!";" :: rest) (follow_none (by decide) _) (n := n)
        (by omega)
      have hty := type_print ht (rest := .word x :: .op c!"=" :: (pE e ++ .op c!";" :: rest)) rfl rfl rfl
      simp only [pItem, List.append_assoc, List.cons_append, List.nil_append]
      rw [hv, List.cons_append, item_decl hvo, ← List.cons_append, ← hv, declItem_typed ht, declItem.typed, hty]
      simp only [bind, Option.bind, fnName_word hx (o := c!"=") (by decide), next_op, List.tail_cons, hE, expect_cons]
      rfl

/-- An item is not empty and does not start with a semicolon -/
theorem pItem_first (i : Item) (h : OkItem i) (rest : List Tok) :
    1 ≤ (pItem i).length ∧ next (.op c!";") (pItem i ++ rest) = false := by
  cases i with
  | nsOpen x => exact ⟨by simp [pItem], rfl⟩
  | nsClose => exact ⟨by simp [pItem], rfl⟩
  | clsOpen x b => exact ⟨by simp [pItem], rfl⟩
  | clsClose => exact ⟨by simp [pItem], rfl⟩
  | access w => exact ⟨by simp [pItem], rfl⟩
  | enum x ms => exact ⟨by simp [pItem], rfl⟩
  | fn t q ps b =>
    obtain ⟨h1, h2, h3, h4⟩ := h
    refine ⟨by simp only [pItem, List.length_append, List.length_cons]; omega, ?_⟩
    cases t with
    | none =>
      obtain ⟨w, qr, hw, hwi⟩ := pq_first h2
      simp only [pItem, pTypeOpt, hw]
      rfl
    | some t =>
      simp only [pItem, pTypeOpt, List.append_assoc]
      exact type_not_op (h1 t rfl) _ _
  | var t x e =>
    obtain ⟨ht, hx, he⟩ := h
    cases e with
    | none =>
      refine ⟨by simp [pItem], ?_⟩
      simp only [pItem, List.append_assoc]
      exact type_not_op ht _ _
    | some e =>
      refine ⟨by simp only [pItem, List.length_append, List.length_cons]; omega, ?_⟩
      simp only [pItem, List.append_assoc]
      exact type_not_op ht _ _

theorem items_print (is : List Item) (h : ∀ i ∈ is, OkItem i) (n : Nat) (hn : 16 * (pItems is).length + 1 ≤ n) :
    items n (pItems is) = some is := by
  induction is generalizing n with
  | nil =>
    obtain ⟨n, rfl⟩ : ∃ m, n = m + 1 := ⟨n - 1, by omega⟩
    rfl
  | cons i is ih =>
    obtain ⟨n, rfl⟩ : ∃ m, n = m + 1 := ⟨n - 1, by omega⟩
    have hp : pItems (i :: is) = pItem i ++ pItems is := rfl
    rw [hp] at hn ⊢
    rw [List.length_append] at hn
    have hi := h i (by simp)
    have hf := pItem_first i hi (pItems is)
    have hr : next (.op c!";") (pItems is) = false := by
      cases is with
      | nil => rfl
      | cons j js => exact (pItem_first j (h j (by simp)) (pItems js)).2
    have h1 := item_print i hi (pItems is) (fun _ => hr) n (by omega)
    have h2 := ih (fun j hj => h j (List.mem_cons_of_mem _ hj)) n (by omega)
    cases hl : pItem i ++ pItems is with
    | nil =>
      have := congrArg List.length hl
      rw [List.length_append, List.length_nil] at this
      omega
    | cons t ts =>
      rw [hl] at h1
      rw [items]
      · simp only [h1, h2, bind, Option.bind]
      · simp

/-- The parser finds the items of a file again -/
theorem parse_print {is : List Item} (h : ∀ i ∈ is, OkItem i) : parse (pItems is) = some is :=
  items_print is h _ (by omega)

end Parse

end Cpp

end Spec

end Rtcg
