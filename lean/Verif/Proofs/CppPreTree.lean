import Verif.Spec.CppPre
import Verif.Proofs.CppItem

/-
Words that stand for types, replaced in the tokens of a tree, give the tokens of the tree with types in place of the words.
-/

namespace Rtcg

namespace Spec

namespace Cpp

namespace Subst

open Parse

variable {τ : Str → Option CType} {K : Str → Prop}

/-! ### trees without words that stand for something, but for types -/

/-- A type without such words -/
def KT (K : Str → Prop) (t : CType) : Prop := ∀ w ∈ t.name, K w

/-- A type without such words, or such a word -/
def TM (τ : Str → Option CType) (K : Str → Prop) (t : CType) : Prop := KT K t ∨ ∃ w s, t.name = [w] ∧ t.ptr = [] ∧ τ w = some s

mutual

def KE (τ : Str → Option CType) (K : Str → Prop) : Expr → Prop
  | .name q => ∀ w ∈ q, K w
  | .str _ => True
  | .num w => K w
  | .bool _ => True
  | .post e s => KE τ K e ∧ KS τ K s
  | .un _ e => KE τ K e
  | .shift e t => KE τ K e ∧ KTl τ K t
  | .eq _ a b => KE τ K a ∧ KE τ K b
  | .and a b => KE τ K a ∧ KE τ K b
  | .assign a b => KE τ K a ∧ KE τ K b

def KS (τ : Str → Option CType) (K : Str → Prop) : Suf → Prop
  | .nil => True
  | .dot f s => K f ∧ KS τ K s
  | .arrow f s => K f ∧ KS τ K s
  | .inst t s => TM τ K t ∧ KS τ K s
  | .call a s => KA τ K a ∧ KS τ K s

def KA (τ : Str → Option CType) (K : Str → Prop) : Args → Prop
  | .nil => True
  | .cons e a => KE τ K e ∧ KA τ K a

def KTl (τ : Str → Option CType) (K : Str → Prop) : Tail → Prop
  | .nil => True
  | .cons _ e t => KE τ K e ∧ KTl τ K t

end

mutual

def KSt (τ : Str → Option CType) (K : Str → Prop) : Stmt → Prop
  | .skip => True
  | .expr e => KE τ K e
  | .decl t x => KT K t ∧ K x
  | .declEq t x e => KT K t ∧ K x ∧ KE τ K e
  | .declBraces t x a => KT K t ∧ K x ∧ KA τ K a
  | .ret => True
  | .retVal e => KE τ K e
  | .brk => True
  | .ite c a b => KE τ K c ∧ KSt τ K a ∧ KSt τ K b
  | .switch e b => KE τ K e ∧ KSs τ K b
  | .case e => KE τ K e
  | .dflt => True
  | .block b => KSs τ K b
  | .loop t x e c s b => KT K t ∧ K x ∧ KE τ K e ∧ KE τ K c ∧ KE τ K s ∧ KSt τ K b

def KSs (τ : Str → Option CType) (K : Str → Prop) : Stmts → Prop
  | .nil => True
  | .cons s ss => KSt τ K s ∧ KSs τ K ss

end

def KItem (τ : Str → Option CType) (K : Str → Prop) : Item → Prop
  | .nsOpen n => K n
  | .nsClose => True
  | .clsOpen n b => K n ∧ ∀ q, b = some q → ∀ w ∈ q, K w
  | .clsClose => True
  | .access w => K w
  | .enum n ms => K n ∧ ∀ m ∈ ms, K m
  | .fn t q ps b => (∀ t', t = some t' → TM τ K t') ∧ (∀ w ∈ q, K w) ∧ (∀ p ∈ ps, TM τ K p.1 ∧ K p.2) ∧ ∀ ss, b = some ss → KSs τ K ss
  | .var t x e => KT K t ∧ K x ∧ ∀ e', e = some e' → KE τ K e'

/-! ### what becomes of the tokens -/

/-- How tokens are replaced: words that stand for nothing, operators and strings stay as they are -/
structure Replaces (τ : Str → Option CType) (K : Str → Prop) (f : Tok → List Tok) : Prop where
  op : ∀ o, f (.op o) = [.op o]
  str : ∀ s, f (.str s) = [.str s]
  word : ∀ w, K w → f (.word w) = [.word w] ∧ τ w = none
  keyword : ∀ w ∈ keywords, K w
  type : ∀ w s, τ w = some s → f (.word w) = pTypeName s.name ++ s.ptr.map .op ∧ isIdent w = true

variable {f : Tok → List Tok}

theorem flat_words (h : Replaces τ K f) {q : List Str} (hq : ∀ w ∈ q, K w) : (qrest q).flatMap f = qrest q := by
  induction q with
  | nil => rfl
  | cons w q ih =>
    rw [qrest, List.flatMap_cons, List.flatMap_cons, h.op, (h.word w (hq w (by simp))).1, ih (fun w hw => hq w (by simp [hw]))]
    rfl

theorem flat_pq (h : Replaces τ K f) {q : List Str} (hq : ∀ w ∈ q, K w) : (pq q).flatMap f = pq q := by
  cases q with
  | nil => rfl
  | cons w q =>
    rw [pq, List.flatMap_cons, (h.word w (hq w (by simp))).1, flat_words h (fun w hw => hq w (by simp [hw]))]
    rfl

theorem flat_ops (h : Replaces τ K f) (l : List Str) : (l.map Tok.op).flatMap f = l.map .op := by
  induction l with
  | nil => rfl
  | cons o l ih => rw [List.map_cons, List.flatMap_cons, h.op, ih]; rfl

theorem flat_const (h : Replaces τ K f) (b : Bool) :
    (if b then [Tok.word c!"const"] else []).flatMap f = if b then [Tok.word c!"const"] else [] := by
  cases b with
  | false => rfl
  | true =>
    show f (.word c!"const") ++ [] = _
    rw [(h.word _ (h.keyword _ (by decide))).1]
    rfl

theorem flat_typeName (h : Replaces τ K f) {q : List Str} (hq : ∀ w ∈ q, K w) : (pTypeName q).flatMap f = pTypeName q := by
  unfold pTypeName
  split
  · rw [List.flatMap_cons, List.flatMap_cons, (h.word _ (h.keyword c!"unsigned" (by decide))).1,
      (h.word _ (h.keyword c!"int" (by decide))).1]
    rfl
  · exact flat_pq h hq

theorem substT_KT (h : Replaces τ K f) {t : CType} (ht : KT K t) : substT τ t = t := by
  unfold substT
  cases hn : t.name with
  | nil => rfl
  | cons w q =>
    cases q with
    | nil => simp only [(h.word w (ht w (by simp [hn]))).2]
    | cons _ _ => rfl

theorem flat_KT (h : Replaces τ K f) {t : CType} (ht : KT K t) : (pType t).flatMap f = pType t := by
  unfold pType
  rw [List.flatMap_append, List.flatMap_append, flat_const h, flat_typeName h ht, flat_ops h]

theorem flat_type (h : Replaces τ K f) {t : CType} (ht : TM τ K t) : (pType t).flatMap f = pType (substT τ t) := by
  rcases ht with ht | ⟨w, s, h1, h2, h3⟩
  · rw [substT_KT h ht, flat_KT h ht]
  · obtain ⟨c, n, p⟩ := t
    simp only at h1 h2
    subst h1 h2
    obtain ⟨h4, h5⟩ := h.type w s h3
    have hne : ¬ [w] = [c!"unsigned int"] := by
      intro he
      cases he
      exact absurd h5 (by decide)
    have hs : substT τ ⟨c, [w], []⟩ = ⟨c, s.name, s.ptr⟩ := by
      unfold substT
      simp only [h3, List.append_nil]
    rw [hs]
    unfold pType
    simp only [List.flatMap_append, flat_const h, List.map_nil, List.flatMap_nil, List.append_nil]
    congr 1
    rw [pTypeName, if_neg hne]
    show f (.word w) ++ [] = _
    rw [List.append_nil, h4]

mutual

theorem flatE (h : Replaces τ K f) : (e : Expr) → KE τ K e → (pE e).flatMap f = pE (substE τ e)
  | .name q, hk => flat_pq h hk
  | .str s, _ => by
    show f (.str s) ++ [] = _
    rw [h.str]; rfl
  | .num w, hk => by
    show f (.word w) ++ [] = _
    rw [(h.word w hk).1]; rfl
  | .bool b, _ => by
    show f (.word _) ++ [] = _
    rw [(h.word _ (h.keyword _ (by cases b <;> decide))).1]; rfl
  | .post e s, hk => by rw [pE, List.flatMap_append, flatE h e hk.1, flatS h s hk.2]; rfl
  | .un op e, hk => by rw [pE, List.flatMap_cons, h.op, flatE h e hk]; rfl
  | .shift e t, hk => by rw [pE, List.flatMap_append, flatE h e hk.1, flatTl h t hk.2]; rfl
  | .eq op a b, hk => by rw [pE, List.flatMap_append, List.flatMap_cons, h.op, flatE h a hk.1, flatE h b hk.2]; rfl
  | .and a b, hk => by rw [pE, List.flatMap_append, List.flatMap_cons, h.op, flatE h a hk.1, flatE h b hk.2]; rfl
  | .assign a b, hk => by rw [pE, List.flatMap_append, List.flatMap_cons, h.op, flatE h a hk.1, flatE h b hk.2]; rfl

theorem flatS (h : Replaces τ K f) : (s : Suf) → KS τ K s → (pS s).flatMap f = pS (substS τ s)
  | .nil, _ => rfl
  | .dot x s, hk => by rw [pS, List.flatMap_cons, List.flatMap_cons, h.op, (h.word x hk.1).1, flatS h s hk.2]; rfl
  | .arrow x s, hk => by rw [pS, List.flatMap_cons, List.flatMap_cons, h.op, (h.word x hk.1).1, flatS h s hk.2]; rfl
  | .inst t s, hk => by
    rw [pS, List.flatMap_cons, List.flatMap_append, List.flatMap_cons, h.op, h.op, flat_type h hk.1, flatS h s hk.2]; rfl
  | .call a s, hk => by
    rw [pS, List.flatMap_cons, List.flatMap_append, List.flatMap_cons, h.op, h.op, flatA h a hk.1, flatS h s hk.2]; rfl

theorem flatA (h : Replaces τ K f) : (a : Args) → KA τ K a → (pA a).flatMap f = pA (substA τ a)
  | .nil, _ => rfl
  | .cons e .nil, hk => flatE h e hk.1
  | .cons e (.cons e' a), hk => by
    have ih := flatA h (.cons e' a) hk.2
    rw [pA, List.flatMap_append, List.flatMap_cons, h.op, flatE h e hk.1, ih]
    · rfl
    · intro h; cases h

theorem flatTl (h : Replaces τ K f) : (t : Tail) → KTl τ K t → (pT t).flatMap f = pT (substTl τ t)
  | .nil, _ => rfl
  | .cons op e t, hk => by rw [pT, List.flatMap_cons, List.flatMap_append, h.op, flatE h e hk.1, flatTl h t hk.2]; rfl

end

theorem flat_kw (h : Replaces τ K f) {w : Str} (hw : w ∈ keywords) : f (.word w) = [.word w] := (h.word w (h.keyword w hw)).1

theorem pSt_else (c : Expr) (a b : Stmt) (hb : b ≠ .skip) :
    pSt (.ite c a b) = .word c!"if" :: .op c!"(" :: (pE c ++ .op c!")" :: (pSt a ++ .word c!"else" :: pSt b)) := by
  cases b <;> first | exact absurd rfl hb | rfl

theorem substSt_skip {b : Stmt} (h : b ≠ .skip) : substSt τ b ≠ .skip := by
  cases b <;> first | exact absurd rfl h | (intro he; cases he)

mutual

theorem flatSt (h : Replaces τ K f) : (s : Stmt) → KSt τ K s → (pSt s).flatMap f = pSt (substSt τ s)
  | .skip, _ => rfl
  | .expr e, hk => by rw [pSt, List.flatMap_append, flatE h e hk, List.flatMap_cons, h.op]; rfl
  | .decl t x, hk => by
    rw [pSt, List.flatMap_append, flat_type h (.inl hk.1), List.flatMap_cons, List.flatMap_cons, (h.word x hk.2).1, h.op]; rfl
  | .declEq t x e, hk => by
    rw [pSt, List.flatMap_append, flat_type h (.inl hk.1), List.flatMap_cons, List.flatMap_cons, (h.word x hk.2.1).1, h.op,
      List.flatMap_append, flatE h e hk.2.2, List.flatMap_cons, h.op]; rfl
  | .declBraces t x a, hk => by
    rw [pSt, List.flatMap_append, flat_type h (.inl hk.1), List.flatMap_cons, List.flatMap_cons, (h.word x hk.2.1).1, h.op,
      List.flatMap_append, flatA h a hk.2.2, List.flatMap_cons, List.flatMap_cons, h.op, h.op]; rfl
  | .ret, _ => by rw [pSt, List.flatMap_cons, List.flatMap_cons, flat_kw h (by decide), h.op]; rfl
  | .retVal e, hk => by
    rw [pSt, List.flatMap_cons, List.flatMap_append, flat_kw h (by decide), flatE h e hk, List.flatMap_cons, h.op]; rfl
  | .brk, _ => by rw [pSt, List.flatMap_cons, List.flatMap_cons, flat_kw h (by decide), h.op]; rfl
  | .ite c a b, hk => by
    have ha := flatSt h a hk.2.1
    have hb := flatSt h b hk.2.2
    by_cases hs : b = .skip
    · subst hs
      show List.flatMap f (.word c!"if" :: .op c!"(" :: (pE c ++ .op c!")" :: pSt a)) = _
      rw [List.flatMap_cons, List.flatMap_cons, List.flatMap_append, List.flatMap_cons, flat_kw h (by decide), h.op, h.op, flatE h c hk.1, ha]
      rfl
    · rw [pSt_else c a b hs, substSt, pSt_else _ _ _ (substSt_skip hs), List.flatMap_cons, List.flatMap_cons, List.flatMap_append,
        List.flatMap_cons, List.flatMap_append, List.flatMap_cons, flat_kw h (by decide), flat_kw h (w := c!"else") (by decide), h.op, h.op,
        flatE h c hk.1, ha, hb]
      rfl
  | .switch e b, hk => by
    rw [pSt, List.flatMap_cons, List.flatMap_cons, List.flatMap_append, List.flatMap_cons, List.flatMap_cons, List.flatMap_append,
      List.flatMap_cons, flat_kw h (by decide), h.op, h.op, h.op, h.op, flatE h e hk.1, flatSs h b hk.2]; rfl
  | .case e, hk => by
    rw [pSt, List.flatMap_cons, List.flatMap_append, flat_kw h (by decide), flatE h e hk, List.flatMap_cons, h.op]; rfl
  | .dflt, _ => by rw [pSt, List.flatMap_cons, List.flatMap_cons, flat_kw h (by decide), h.op]; rfl
  | .block b, hk => by
    rw [pSt, List.flatMap_cons, List.flatMap_append, List.flatMap_cons, h.op, h.op, flatSs h b hk]; rfl
  | .loop t x e c s b, hk => by
    have hb := flatSt h b hk.2.2.2.2.2
    simp only [pSt, substSt, List.flatMap_cons, List.flatMap_append, List.flatMap_nil, flat_kw h (show c!"for" ∈ keywords by decide), h.op,
      flat_type h (.inl hk.1), (h.word x hk.2.1).1, flatE h e hk.2.2.1, flatE h c hk.2.2.2.1, flatE h s hk.2.2.2.2.1, hb,
      List.cons_append, List.nil_append]

theorem flatSs (h : Replaces τ K f) : (ss : Stmts) → KSs τ K ss → (pSs ss).flatMap f = pSs (substSs τ ss)
  | .nil, _ => rfl
  | .cons s ss, hk => by rw [pSs, List.flatMap_append, flatSt h s hk.1, flatSs h ss hk.2]; rfl

end

theorem flat_params (h : Replaces τ K f) : (ps : List Param) → (∀ p ∈ ps, TM τ K p.1 ∧ K p.2) →
    (pParams ps).flatMap f = pParams (ps.map fun p => (substT τ p.1, p.2))
  | [], _ => rfl
  | [p], hk => by
    obtain ⟨h1, h2⟩ := hk p (by simp)
    show List.flatMap f (pType p.1 ++ [.word p.2]) = _
    rw [List.flatMap_append, flat_type h h1, List.flatMap_cons, (h.word _ h2).1]; rfl
  | p :: p' :: ps, hk => by
    obtain ⟨h1, h2⟩ := hk p (by simp)
    have ih := flat_params h (p' :: ps) (fun q hq => hk q (List.mem_cons_of_mem _ hq))
    show List.flatMap f ((pType p.1 ++ [.word p.2]) ++ .op c!"," :: pParams (p' :: ps)) = _
    rw [List.flatMap_append, List.flatMap_append, flat_type h h1, List.flatMap_cons, (h.word _ h2).1, List.flatMap_cons, h.op, ih]; rfl

theorem flatItem (h : Replaces τ K f) (i : Item) (hk : KItem τ K i) : (pItem i).flatMap f = pItem (substItem τ i) := by
  cases i with
  | nsOpen n =>
    simp only [pItem, substItem, List.flatMap_cons, List.flatMap_nil, flat_kw h (show c!"namespace" ∈ keywords by decide), (h.word n hk).1, h.op]
    rfl
  | nsClose => simp only [pItem, substItem, List.flatMap_cons, List.flatMap_nil, h.op]; rfl
  | clsOpen n b =>
    obtain ⟨h1, h2⟩ := hk
    cases b with
    | none =>
      simp only [pItem, pBase, substItem, List.flatMap_cons, List.flatMap_append, List.flatMap_nil, flat_kw h (show c!"class" ∈ keywords by decide),
        (h.word n h1).1, h.op, List.cons_append, List.nil_append]
    | some q =>
      simp only [pItem, pBase, substItem, List.flatMap_cons, List.flatMap_append, List.flatMap_nil, flat_kw h (show c!"class" ∈ keywords by decide),
        flat_kw h (show c!"public" ∈ keywords by decide), flat_pq h (h2 q rfl), (h.word n h1).1, h.op, List.cons_append, List.nil_append]
  | clsClose => simp only [pItem, substItem, List.flatMap_cons, List.flatMap_nil, h.op]; rfl
  | access w => simp only [pItem, substItem, List.flatMap_cons, List.flatMap_nil, (h.word w hk).1, h.op]; rfl
  | enum n ms =>
    have hm : (pMembers ms).flatMap f = pMembers ms := by
      have := hk.2
      clear hk
      induction ms with
      | nil => rfl
      | cons m ms ih =>
        have ih := ih (fun x hx => this x (by simp [hx]))
        show List.flatMap f (.word m :: .op c!"," :: pMembers ms) = _
        rw [List.flatMap_cons, List.flatMap_cons, (h.word m (this m (by simp))).1, h.op, ih]; rfl
    simp only [pItem, substItem, List.flatMap_cons, List.flatMap_append, List.flatMap_nil, flat_kw h (show c!"class" ∈ keywords by decide),
      flat_kw h (show c!"enum" ∈ keywords by decide), hm, (h.word n hk.1).1, h.op, List.cons_append, List.nil_append]
  | fn t q ps b =>
    obtain ⟨h1, h2, h3, h4⟩ := hk
    have ht : (pTypeOpt t).flatMap f = pTypeOpt (t.map (substT τ)) := by
      cases t with
      | none => rfl
      | some t => exact flat_type h (h1 t rfl)
    have hb : (pBody b).flatMap f = pBody (b.map (substSs τ)) := by
      cases b with
      | none => show f (.op c!";") ++ [] = _; rw [h.op]; rfl
      | some ss =>
        show List.flatMap f (.op c!"{" :: (pSs ss ++ [.op c!"}"])) = _
        rw [List.flatMap_cons, List.flatMap_append, List.flatMap_cons, h.op, h.op, flatSs h ss (h4 ss rfl)]; rfl
    simp only [pItem, substItem, List.flatMap_cons, List.flatMap_append, ht, hb, flat_pq h h2, flat_params h ps h3, h.op,
      List.cons_append, List.nil_append]
  | var t x e =>
    obtain ⟨h1, h2, h3⟩ := hk
    cases e with
    | none =>
      simp only [pItem, substItem, Option.map_none, List.flatMap_cons, List.flatMap_append, List.flatMap_nil, flat_type h (.inl h1), (h.word x h2).1, h.op,
        List.cons_append, List.nil_append]
    | some e =>
      simp only [pItem, substItem, Option.map_some, List.flatMap_cons, List.flatMap_append, List.flatMap_nil, flat_type h (.inl h1), (h.word x h2).1, h.op,
        flatE h e (h3 e rfl), List.cons_append, List.nil_append]

/-- Replacing words in the tokens of items -/
theorem flatItems (h : Replaces τ K f) (is : List Item) (hk : ∀ i ∈ is, KItem τ K i) :
    (pItems is).flatMap f = pItems (is.map (substItem τ)) := by
  induction is with
  | nil => rfl
  | cons i is ih =>
    show List.flatMap f (pItem i ++ pItems is) = _
    rw [List.flatMap_append, flatItem h i (hk i (by simp)), ih (fun j hj => hk j (by simp [hj]))]
    rfl

/-! ### they can still be printed -/

theorem ok_type (hτ : ∀ w s, τ w = some s → OkType s) {t : CType} (h : OkType t) : OkType (substT τ t) := by
  unfold substT
  split
  · split
    · rename_i s hs
      obtain ⟨h1, h2⟩ := hτ _ s hs
      refine ⟨h1, ?_⟩
      intro o ho
      rcases List.mem_append.1 ho with ho | ho
      · exact h2 o ho
      · exact h.2 o ho
    · exact h
  · exact h

theorem lvl_subst (e : Expr) : lvl (substE τ e) = lvl e := by cases e <;> rfl

theorem substS_nil {s : Suf} : substS τ s = .nil ↔ s = .nil := by
  cases s <;> simp [substS]

theorem substTl_nil {t : Tail} : substTl τ t = .nil ↔ t = .nil := by
  cases t <;> simp [substTl]

mutual

theorem okE (hτ : ∀ w s, τ w = some s → OkType s) : (e : Expr) → OkE e → OkE (substE τ e)
  | .name _, h => h
  | .str _, _ => trivial
  | .num _, h => h
  | .bool _, _ => trivial
  | .post e s, h => ⟨okE hτ e h.1, (lvl_subst e).trans h.2.1, fun hn => h.2.2.1 (substS_nil.1 hn), okS hτ s h.2.2.2⟩
  | .un _ e, h => ⟨h.1, okE hτ e h.2.1, (lvl_subst e).symm ▸ h.2.2⟩
  | .shift e t, h => ⟨okE hτ e h.1, (lvl_subst e).symm ▸ h.2.1, fun hn => h.2.2.1 (substTl_nil.1 hn), okTl hτ t h.2.2.2⟩
  | .eq _ a b, h => ⟨h.1, okE hτ a h.2.1, (lvl_subst a).symm ▸ h.2.2.1, okE hτ b h.2.2.2.1, (lvl_subst b).symm ▸ h.2.2.2.2⟩
  | .and a b, h => ⟨okE hτ a h.1, (lvl_subst a).symm ▸ h.2.1, okE hτ b h.2.2.1, (lvl_subst b).symm ▸ h.2.2.2⟩
  | .assign a b, h => ⟨okE hτ a h.1, (lvl_subst a).symm ▸ h.2.1, okE hτ b h.2.2⟩

theorem okS (hτ : ∀ w s, τ w = some s → OkType s) : (s : Suf) → OkS s → OkS (substS τ s)
  | .nil, _ => trivial
  | .dot _ s, h => ⟨h.1, okS hτ s h.2⟩
  | .arrow _ s, h => ⟨h.1, okS hτ s h.2⟩
  | .inst _ s, h => ⟨ok_type hτ h.1, okS hτ s h.2⟩
  | .call a s, h => ⟨okA hτ a h.1, okS hτ s h.2⟩

theorem okA (hτ : ∀ w s, τ w = some s → OkType s) : (a : Args) → OkA a → OkA (substA τ a)
  | .nil, _ => trivial
  | .cons e a, h => ⟨okE hτ e h.1, okA hτ a h.2⟩

theorem okTl (hτ : ∀ w s, τ w = some s → OkType s) : (t : Tail) → OkT t → OkT (substTl τ t)
  | .nil, _ => trivial
  | .cons _ e t, h => ⟨h.1, okE hτ e h.2.1, (lvl_subst e).symm ▸ h.2.2.1, okTl hτ t h.2.2.2⟩

end

theorem closed_subst {a : Stmt} (h : Closed a) : Closed (substSt τ a) := by
  cases a <;> first | exact h | trivial

theorem okSt_ite {c : Expr} {a b : Stmt} : OkSt (.ite c a b) ↔ OkE c ∧ OkSt a ∧ (b = .skip ∨ Closed a ∧ OkSt b) := by
  cases b <;> simp [OkSt]

mutual

theorem okSt (hτ : ∀ w s, τ w = some s → OkType s) : (s : Stmt) → OkSt s → OkSt (substSt τ s)
  | .skip, h => h
  | .expr e, h => okE hτ e h
  | .decl _ _, h => ⟨ok_type hτ h.1, h.2⟩
  | .declEq _ _ e, h => ⟨ok_type hτ h.1, h.2.1, okE hτ e h.2.2⟩
  | .declBraces _ _ a, h => ⟨ok_type hτ h.1, h.2.1, okA hτ a h.2.2⟩
  | .ret, _ => trivial
  | .retVal e, h => okE hτ e h
  | .brk, _ => trivial
  | .ite c a b, h => by
    obtain ⟨h1, h2, h3⟩ := okSt_ite.1 h
    refine okSt_ite.2 ⟨okE hτ c h1, okSt hτ a h2, ?_⟩
    rcases h3 with rfl | ⟨h3, h4⟩
    · exact .inl rfl
    · exact .inr ⟨closed_subst h3, okSt hτ b h4⟩
  | .switch e b, h => ⟨okE hτ e h.1, okSs hτ b h.2⟩
  | .case e, h => ⟨okE hτ e h.1, (lvl_subst e).symm ▸ h.2⟩
  | .dflt, _ => trivial
  | .block b, h => okSs hτ b h
  | .loop _ _ e c s b, h => ⟨ok_type hτ h.1, h.2.1, okE hτ e h.2.2.1, okE hτ c h.2.2.2.1, okE hτ s h.2.2.2.2.1, okSt hτ b h.2.2.2.2.2⟩

theorem okSs (hτ : ∀ w s, τ w = some s → OkType s) : (ss : Stmts) → OkSs ss → OkSs (substSs τ ss)
  | .nil, _ => trivial
  | .cons s ss, h => ⟨okSt hτ s h.1, okSs hτ ss h.2⟩

end

theorem okItem (hτ : ∀ w s, τ w = some s → OkType s) (i : Item) (h : OkItem i) : OkItem (substItem τ i) := by
  cases i with
  | fn t q ps b =>
    obtain ⟨h1, h2, h3, h4⟩ := h
    refine ⟨?_, h2, ?_, ?_⟩
    · intro t' ht
      obtain ⟨t0, h0, rfl⟩ := Option.map_eq_some_iff.1 ht
      exact ok_type hτ (h1 t0 h0)
    · intro p hp
      obtain ⟨p0, h0, rfl⟩ := List.mem_map.1 hp
      exact ⟨ok_type hτ (h3 p0 h0).1, (h3 p0 h0).2⟩
    · intro ss hs
      obtain ⟨s0, h0, rfl⟩ := Option.map_eq_some_iff.1 hs
      exact okSs hτ s0 (h4 s0 h0)
  | var t x e =>
    obtain ⟨h1, h2, h3⟩ := h
    refine ⟨ok_type hτ h1, h2, ?_⟩
    intro e' he
    obtain ⟨e0, h0, rfl⟩ := Option.map_eq_some_iff.1 he
    exact okE hτ e0 (h3 e0 h0)
  | _ => exact h

/-! ### spelled types -/

theorem qtail_inv : (ts : List Tok) → ∀ q r, qtail ts = (q, r) → ts = qrest q ++ r ∧ ∀ w ∈ q, isIdent w = true
  | [], q, r, h => by cases h; exact ⟨rfl, by simp⟩
  | .op o :: .word w :: ts, q, r, h => by
    rw [qtail] at h
    split at h
    · rename_i hc
      rw [Bool.and_eq_true, decide_eq_true_eq] at hc
      obtain ⟨h1, h2⟩ := qtail_inv ts _ _ rfl
      cases h
      refine ⟨?_, ?_⟩
      · rw [hc.1, qrest, List.cons_append, List.cons_append, ← h1]
      · intro x hx
        rcases List.mem_cons.1 hx with rfl | hx
        · exact hc.2
        · exact h2 x hx
    · cases h; exact ⟨rfl, by simp⟩
  | [.op o], q, r, h => by cases h; exact ⟨rfl, by simp⟩
  | .op o :: .op _ :: ts, q, r, h => by cases h; exact ⟨rfl, by simp⟩
  | .op o :: .str _ :: ts, q, r, h => by cases h; exact ⟨rfl, by simp⟩
  | .op o :: .dir _ :: ts, q, r, h => by cases h; exact ⟨rfl, by simp⟩
  | .op o :: .bad :: ts, q, r, h => by cases h; exact ⟨rfl, by simp⟩
  | .word _ :: ts, q, r, h => by cases h; exact ⟨rfl, by simp⟩
  | .str _ :: ts, q, r, h => by cases h; exact ⟨rfl, by simp⟩
  | .dir _ :: ts, q, r, h => by cases h; exact ⟨rfl, by simp⟩
  | .bad :: ts, q, r, h => by cases h; exact ⟨rfl, by simp⟩

theorem qname_inv {ts : List Tok} {q : List Str} {r : List Tok} (h : qname ts = some (q, r)) : ts = pq q ++ r ∧ OkQ q := by
  unfold qname at h
  match ts, h with
  | .word w :: ts, h =>
    rw [ident] at h
    split at h
    · rename_i hw
      cases h
      obtain ⟨h1, h2⟩ := qtail_inv ts _ _ rfl
      refine ⟨?_, by simp, ?_⟩
      · rw [pq, List.cons_append, ← h1]
      · intro x hx
        rcases List.mem_cons.1 hx with rfl | hx
        · exact hw
        · exact h2 x hx
    · cases h

theorem ptrs_inv : (ts : List Tok) → ∀ p r, ptrs ts = (p, r) → ts = p.map .op ++ r ∧ ∀ o ∈ p, o = c!"*" ∨ o = c!"&"
  | [], p, r, h => by cases h; exact ⟨rfl, by simp⟩
  | .op o :: ts, p, r, h => by
    rw [ptrs] at h
    split at h
    · rename_i hc
      obtain ⟨h1, h2⟩ := ptrs_inv ts _ _ rfl
      cases h
      refine ⟨?_, ?_⟩
      · rw [List.map_cons, List.cons_append, ← h1]
      · intro x hx
        rcases List.mem_cons.1 hx with rfl | hx
        · simpa using hc
        · exact h2 x hx
    · cases h; exact ⟨rfl, by simp⟩
  | .word _ :: ts, p, r, h => by cases h; exact ⟨rfl, by simp⟩
  | .str _ :: ts, p, r, h => by cases h; exact ⟨rfl, by simp⟩
  | .dir _ :: ts, p, r, h => by cases h; exact ⟨rfl, by simp⟩
  | .bad :: ts, p, r, h => by cases h; exact ⟨rfl, by simp⟩

theorem typeName_inv {ts : List Tok} {q : List Str} {r : List Tok} (h : typeName ts = some (q, r)) : ts = pTypeName q ++ r ∧ OkTypeName q := by
  unfold typeName at h
  split at h
  · rename_i hn
    match ts, hn, h with
    | .word w :: .word w' :: ts, hn, h =>
      have h1 : w = c!"unsigned" := by simpa [next] using hn
      unfold expect at h
      split at h
      · rename_i hn'
        have h2 : w' = c!"int" := by simpa [next] using hn'
        subst h1 h2
        cases h
        exact ⟨rfl, .inl rfl⟩
      · cases h
    | [.word w], hn, h => cases h
    | .word w :: .op _ :: ts, hn, h => cases h
    | .word w :: .str _ :: ts, hn, h => cases h
    | .word w :: .dir _ :: ts, hn, h => cases h
    | .word w :: .bad :: ts, hn, h => cases h
  · match ts, h with
    | .word w :: ts, h =>
      simp only at h
      split at h
      · rename_i hb
        cases h
        have hm : w ∈ builtin := List.contains_iff_mem.1 hb
        refine ⟨?_, .inr (.inl ⟨w, hm, rfl⟩)⟩
        rw [pTypeName, if_neg]
        · rfl
        · rintro ⟨rfl⟩; exact absurd hm (by decide)
      · obtain ⟨h1, h2⟩ := qname_inv h
        refine ⟨?_, .inr (.inr h2)⟩
        rw [h1, pTypeName, if_neg]
        rintro rfl
        exact absurd (h2.2 c!"unsigned int" (by simp)) (by decide)

/-- A text that spells a type has the tokens of the type -/
theorem spells_inv {text : Str} {t : CType} (h : Spells text t) : lex text = pType t ∧ OkType t := by
  obtain ⟨h1, h2⟩ := h
  unfold type at h1
  split at h1
  · obtain ⟨r, _, he⟩ := Option.map_eq_some_iff.1 h1
    obtain ⟨rfl, _⟩ := Prod.mk.inj he
    cases h2
  · obtain ⟨r, hr, he⟩ := Option.map_eq_some_iff.1 h1
    obtain ⟨h3, h4⟩ := typeName_inv hr
    obtain ⟨h5, h6⟩ := ptrs_inv r.2 _ _ rfl
    obtain ⟨he1, he2⟩ := Prod.mk.inj he
    subst he1
    refine ⟨?_, h4, h6⟩
    rw [he2, List.append_nil] at h5
    simp only [pType, Bool.false_eq_true, if_false, List.nil_append]
    exact h3.trans (congrArg (pTypeName r.1 ++ ·) h5)

end Subst

end Cpp

end Spec

end Rtcg
