import Verif.Spec.CppSyntax

/-
What a syntax tree looks like as tokens, and that the parser finds the tree again.
-/

namespace Rtcg

namespace Spec

namespace Cpp

namespace Parse

/-! ### printing -/

/-- `::` and a word, repeated -/
def qrest : List Str → List Tok
  | [] => []
  | w :: q => .op c!"::" :: .word w :: qrest q

def pq : List Str → List Tok
  | [] => []
  | w :: q => .word w :: qrest q

def pTypeName (q : List Str) : List Tok := if q = [c!"unsigned int"] then [.word c!"unsigned", .word c!"int"] else pq q

def pType (t : CType) : List Tok :=
  (if t.const then [.word c!"const"] else []) ++ (pTypeName t.name ++ t.ptr.map .op)

mutual

def pE : Expr → List Tok
  | .name q => pq q
  | .str s => [.str s]
  | .num w => [.word w]
  | .bool b => [.word (if b then c!"true" else c!"false")]
  | .post e s => pE e ++ pS s
  | .un op e => .op op :: pE e
  | .shift e t => pE e ++ pT t
  | .eq op a b => pE a ++ .op op :: pE b
  | .and a b => pE a ++ .op c!"&&" :: pE b
  | .assign a b => pE a ++ .op c!"=" :: pE b

def pS : Suf → List Tok
  | .nil => []
  | .dot f s => .op c!"." :: .word f :: pS s
  | .arrow f s => .op c!"->" :: .word f :: pS s
  | .inst t s => .op c!"<" :: (pType t ++ .op c!">" :: pS s)
  | .call a s => .op c!"(" :: (pA a ++ .op c!")" :: pS s)

def pA : Args → List Tok
  | .nil => []
  | .cons e .nil => pE e
  | .cons e a => pE e ++ .op c!"," :: pA a

def pT : Tail → List Tok
  | .nil => []
  | .cons op e t => .op op :: (pE e ++ pT t)

end

/-! ### trees that can be printed -/

def OkQ (q : List Str) : Prop := q ≠ [] ∧ ∀ w ∈ q, isIdent w = true

def OkTypeName (q : List Str) : Prop := q = [c!"unsigned int"] ∨ (∃ w ∈ builtin, q = [w]) ∨ OkQ q

def OkType (t : CType) : Prop := OkTypeName t.name ∧ ∀ o ∈ t.ptr, o = c!"*" ∨ o = c!"&"

def lvl : Expr → Nat
  | .name _ => 6
  | .str _ => 6
  | .num _ => 6
  | .bool _ => 6
  | .post _ _ => 5
  | .un _ _ => 4
  | .shift _ _ => 3
  | .eq _ _ _ => 2
  | .and _ _ => 1
  | .assign _ _ => 0

mutual

def OkE : Expr → Prop
  | .name q => OkQ q
  | .str _ => True
  | .num w => isNum w = true
  | .bool _ => True
  | .post e s => OkE e ∧ lvl e = 6 ∧ s ≠ .nil ∧ OkS s
  | .un op e => (op = c!"!" ∨ op = c!"-" ∨ op = c!"&") ∧ OkE e ∧ 4 ≤ lvl e
  | .shift e t => OkE e ∧ 4 ≤ lvl e ∧ t ≠ .nil ∧ OkT t
  | .eq op a b => (op = c!"==" ∨ op = c!"!=") ∧ OkE a ∧ 3 ≤ lvl a ∧ OkE b ∧ 3 ≤ lvl b
  | .and a b => OkE a ∧ 2 ≤ lvl a ∧ OkE b ∧ 1 ≤ lvl b
  | .assign a b => OkE a ∧ 1 ≤ lvl a ∧ OkE b

def OkS : Suf → Prop
  | .nil => True
  | .dot f s => isIdent f = true ∧ OkS s
  | .arrow f s => isIdent f = true ∧ OkS s
  | .inst t s => OkType t ∧ OkS s
  | .call a s => OkA a ∧ OkS s

def OkA : Args → Prop
  | .nil => True
  | .cons e a => OkE e ∧ OkA a

def OkT : Tail → Prop
  | .nil => True
  | .cons op e t => (op = c!"<<" ∨ op = c!">>") ∧ OkE e ∧ 4 ≤ lvl e ∧ OkT t

end

/-! ### what comes next -/

/-- How tightly a token binds to an expression before it -/
def binds : Tok → Option Nat
  | .op o =>
    if o = c!"=" then some 0 else if o = c!"&&" then some 1 else if o = c!"==" || o = c!"!=" then some 2
    else if o = c!"<<" || o = c!">>" then some 3 else if o = c!"." || o = c!"->" || o = c!"<" || o = c!"(" then some 5
    else if o = c!"::" then some 6 else none
  | _ => none

/-- The rest does not continue an expression of level `l` -/
def Follow (l : Nat) (rest : List Tok) : Prop := ∀ t ts, rest = t :: ts → ∀ k, binds t = some k → k < l

theorem Follow.mono {l l' : Nat} (h : l ≤ l') {rest : List Tok} (hf : Follow l rest) : Follow l' rest :=
  fun t ts e k hk => Nat.lt_of_lt_of_le (hf t ts e k hk) h

theorem next_op (a b : Str) (ts : List Tok) : next (.op a) (.op b :: ts) = decide (b = a) := by
  simp [next]

theorem next_op_word (a w : Str) (ts : List Tok) : next (.op a) (.word w :: ts) = false := rfl

theorem next_op_str (a s : Str) (ts : List Tok) : next (.op a) (.str s :: ts) = false := rfl

theorem next_word_op (a w : Str) (ts : List Tok) : next (.word w) (.op a :: ts) = false := rfl

theorem next_word_str (s w : Str) (ts : List Tok) : next (.word w) (.str s :: ts) = false := rfl

theorem next_word (a b : Str) (ts : List Tok) : next (.word a) (.word b :: ts) = decide (b = a) := by
  simp [next]

theorem next_nil (t : Tok) : next t [] = false := rfl

theorem expect_cons (t : Tok) (ts : List Tok) : expect t (t :: ts) = some ts := by simp [expect, next]

theorem Follow.next {l k : Nat} {rest : List Tok} (hf : Follow l rest) {o : Str} (hb : binds (.op o) = some k) (hk : l ≤ k) :
    Cpp.next (.op o) rest = false := by
  cases rest with
  | nil => rfl
  | cons t ts =>
    cases h : Cpp.next (.op o) (t :: ts) with
    | false => rfl
    | true =>
      have e : t = .op o := by simpa [Cpp.next] using h
      have := hf t ts rfl k (e ▸ hb)
      omega

theorem follow_op {l k : Nat} {o : Str} (hb : binds (.op o) = some k) (hk : k < l) (ts : List Tok) : Follow l (.op o :: ts) := by
  intro t ts' e k' hk'
  cases e
  rw [hb] at hk'
  cases hk'
  exact hk

theorem follow_none {l : Nat} {t : Tok} (hb : binds t = none) (ts : List Tok) : Follow l (t :: ts) := by
  intro t' ts' e k' hk'
  cases e
  rw [hb] at hk'
  cases hk'

theorem follow_nil (l : Nat) : Follow l [] := fun _ _ e => nomatch e

/-! ### words, names, types -/

theorem ident_word {w : Str} (h : isIdent w = true) (ts : List Tok) : ident (.word w :: ts) = some (w, ts) := by
  simp [ident, h]

theorem qtail_stop {ts : List Tok} (h : next (.op c!"::") ts = false) : qtail ts = ([], ts) := by
  match ts, h with
  | [], _ => rfl
  | .word _ :: _, _ => rfl
  | .str _ :: _, _ => rfl
  | .dir _ :: _, _ => rfl
  | .bad :: _, _ => rfl
  | [.op o], _ => rfl
  | .op o :: .word w :: ts, h =>
    rw [qtail, if_neg]
    intro h2
    rw [next_op] at h
    simp only [Bool.and_eq_true, decide_eq_true_eq, decide_eq_false_iff_not] at h h2
    exact h h2.1
  | .op o :: .op _ :: ts, _ => rfl
  | .op o :: .str _ :: ts, _ => rfl
  | .op o :: .dir _ :: ts, _ => rfl
  | .op o :: .bad :: ts, _ => rfl

theorem qtail_print (q : List Str) (hq : ∀ w ∈ q, isIdent w = true) (rest : List Tok) (h : next (.op c!"::") rest = false) :
    qtail (qrest q ++ rest) = (q, rest) := by
  induction q with
  | nil => exact qtail_stop h
  | cons w q ih =>
    have ih := ih (fun w hw => hq w (List.mem_cons_of_mem _ hw))
    show qtail (.op c!"::" :: .word w :: (qrest q ++ rest)) = _
    rw [qtail, if_pos (by simp [hq w]), ih]

theorem qname_print {q : List Str} (hq : OkQ q) {rest : List Tok} (h : next (.op c!"::") rest = false) :
    qname (pq q ++ rest) = some (q, rest) := by
  obtain ⟨h1, h2⟩ := hq
  cases q with
  | nil => exact absurd rfl h1
  | cons w q =>
    show qname (.word w :: (qrest q ++ rest)) = _
    unfold qname
    rw [ident_word (h2 w (by simp)), Option.map_some, qtail_print q (fun w hw => h2 w (by simp [hw])) rest h]

theorem ptrs_print (l : List Str) (hl : ∀ o ∈ l, o = c!"*" ∨ o = c!"&") (rest : List Tok) (h1 : next (.op c!"*") rest = false)
    (h2 : next (.op c!"&") rest = false) : ptrs (l.map .op ++ rest) = (l, rest) := by
  induction l with
  | nil =>
    show ptrs rest = _
    match rest, h1, h2 with
    | [], _, _ => rfl
    | .word _ :: _, _, _ => rfl
    | .str _ :: _, _, _ => rfl
    | .dir _ :: _, _, _ => rfl
    | .bad :: _, _, _ => rfl
    | .op o :: ts, h1, h2 =>
      rw [next_op] at h1 h2
      simp only [decide_eq_false_iff_not] at h1 h2
      rw [ptrs, if_neg (by simp [h1, h2])]
  | cons o l ih =>
    show ptrs (.op o :: (l.map .op ++ rest)) = _
    rw [ptrs, if_pos, ih (fun o ho => hl o (by simp [ho]))]
    rcases hl o (by simp) with rfl | rfl <;> rfl

theorem ident_not {w : Str} (h : isIdent w = true) {k : Str} (hk : k ∈ keywords) : w ≠ k := by
  rintro rfl
  simp [isIdent, List.contains_iff_mem, hk] at h

theorem typeName_print {q : List Str} (hq : OkTypeName q) {rest : List Tok} (h : next (.op c!"::") rest = false) :
    typeName (pTypeName q ++ rest) = some (q, rest) := by
  rcases hq with rfl | ⟨w, hw, rfl⟩ | hq
  · rfl
  · have hne : [w] ≠ [c!"unsigned int"] := by
      rintro ⟨rfl⟩
      exact absurd hw (by decide)
    have hu : w ≠ c!"unsigned" := by rintro rfl; exact absurd hw (by decide)
    rw [pTypeName, if_neg hne]
    show typeName (.word w :: rest) = _
    rw [typeName, next_word, if_neg (by simpa using hu)]
    show (if builtin.contains w = true then some ([w], rest) else _) = _
    rw [if_pos (by simpa using hw)]
  · have hne : q ≠ [c!"unsigned int"] := by
      rintro rfl
      exact absurd (hq.2 c!"unsigned int" (by simp)) (by decide)
    have hqn := qname_print hq h
    rw [pTypeName, if_neg hne]
    cases q with
    | nil => exact absurd rfl hq.1
    | cons w q =>
      have hw := hq.2 w (by simp)
      have hu : w ≠ c!"unsigned" := ident_not hw (by decide)
      have hb : builtin.contains w = false := by
        rw [Bool.eq_false_iff]
        intro hc
        rw [List.contains_iff_mem] at hc
        have : ∀ b ∈ builtin, b ∈ keywords := by decide
        exact ident_not hw (this w hc) rfl
      show typeName (.word w :: (qrest q ++ rest)) = _
      rw [typeName, next_word, if_neg (by simpa using hu)]
      show (if builtin.contains w = true then _ else qname _) = _
      rw [if_neg (by rw [hb]; decide)]
      exact hqn

theorem pTypeName_head {q : List Str} (hq : OkTypeName q) : ∃ w r, pTypeName q = .word w :: r ∧ w ≠ c!"const" := by
  rcases hq with rfl | ⟨w, hw, rfl⟩ | hq
  · exact ⟨_, _, rfl, by decide⟩
  · refine ⟨w, [], ?_, ?_⟩
    · rw [pTypeName, if_neg]; · rfl
      rintro ⟨rfl⟩
      exact absurd hw (by decide)
    · rintro rfl; exact absurd hw (by decide)
  · cases q with
    | nil => exact absurd rfl hq.1
    | cons w q =>
      refine ⟨w, qrest q, ?_, ident_not (hq.2 w (by simp)) (by decide)⟩
      rw [pTypeName, if_neg]; · rfl
      intro h
      have := hq.2 w (by simp)
      rw [(List.cons.inj h).1] at this
      exact absurd this (by decide)

theorem type_print {t : CType} (ht : OkType t) {rest : List Tok} (h0 : next (.op c!"::") rest = false)
    (h1 : next (.op c!"*") rest = false) (h2 : next (.op c!"&") rest = false) : type (pType t ++ rest) = some (t, rest) := by
  obtain ⟨c, q, l⟩ := t
  obtain ⟨hq, hl⟩ := ht
  simp only at hq hl
  have hp := ptrs_print l hl rest h1 h2
  have hn : next (.op c!"::") (l.map .op ++ rest) = false := by
    cases l with
    | nil => exact h0
    | cons o l =>
      rcases hl o (by simp) with rfl | rfl <;> rfl
  have htn := typeName_print hq hn
  cases c with
  | true =>
    show type (.word c!"const" :: (pTypeName q ++ l.map .op ++ rest)) = _
    rw [type, if_pos (by rfl)]
    simp only [List.tail_cons, List.append_assoc]
    rw [htn, Option.map_some, hp]
  | false =>
    obtain ⟨w, r, hw, hc⟩ := pTypeName_head hq
    have hnc : next (.word c!"const") (pTypeName q ++ (l.map .op ++ rest)) = false := by
      rw [hw]
      show next _ (.word w :: _) = false
      rw [next_word]; simpa using hc
    show type ([] ++ (pTypeName q ++ l.map .op) ++ rest) = _
    rw [List.nil_append, List.append_assoc, type, if_neg (by rw [hnc]; decide), htn, Option.map_some, hp]

/-! ### the first token of an expression -/

def first : Expr → Tok
  | .name q => .word (q.head?.getD [])
  | .str s => .str s
  | .num w => .word w
  | .bool b => .word (if b then c!"true" else c!"false")
  | .post e _ => first e
  | .un op _ => .op op
  | .shift e _ => first e
  | .eq _ a _ => first a
  | .and a _ => first a
  | .assign a _ => first a

theorem pE_first (e : Expr) (h : OkE e) : ∃ r, pE e = first e :: r := by
  match e, h with
  | .name [], h => exact absurd rfl h.1
  | .name (w :: q), _ => exact ⟨qrest q, by simp [pE, pq, first]⟩
  | .str _, _ => exact ⟨_, by simp [pE, first]; rfl⟩
  | .num _, _ => exact ⟨_, by simp [pE, first]; rfl⟩
  | .bool _, _ => exact ⟨_, by simp [pE, first]; rfl⟩
  | .post e s, h => obtain ⟨r, hr⟩ := pE_first e (by simp only [OkE] at h; exact h.1); exact ⟨_, by rw [pE, hr, first]; rfl⟩
  | .un op e, _ => exact ⟨_, by rw [pE, first]⟩
  | .shift e t, h => obtain ⟨r, hr⟩ := pE_first e (by simp only [OkE] at h; exact h.1); exact ⟨_, by rw [pE, hr, first]; rfl⟩
  | .eq _ a _, h => obtain ⟨r, hr⟩ := pE_first a (by simp only [OkE] at h; exact h.2.1); exact ⟨_, by rw [pE, hr, first]; rfl⟩
  | .and a _, h => obtain ⟨r, hr⟩ := pE_first a (by simp only [OkE] at h; exact h.1); exact ⟨_, by rw [pE, hr, first]; rfl⟩
  | .assign a _, h => obtain ⟨r, hr⟩ := pE_first a (by simp only [OkE] at h; exact h.1); exact ⟨_, by rw [pE, hr, first]; rfl⟩

theorem pE_pos (e : Expr) (h : OkE e) : 1 ≤ (pE e).length := by
  obtain ⟨r, hr⟩ := pE_first e h
  rw [hr]; simp

/-- The words an expression may start with -/
def Starts (t : Tok) : Prop :=
  (∃ w, t = .word w ∧ (isIdent w = true ∨ isNum w = true ∨ w = c!"true" ∨ w = c!"false")) ∨ (∃ s, t = .str s) ∨
    t = .op c!"!" ∨ t = .op c!"-" ∨ t = .op c!"&"

theorem first_starts (e : Expr) (h : OkE e) : Starts (first e) := by
  match e, h with
  | .name [], h => exact absurd rfl h.1
  | .name (w :: q), h => exact .inl ⟨w, rfl, .inl (h.2 w (by simp))⟩
  | .str s, _ => exact .inr (.inl ⟨s, rfl⟩)
  | .num w, h => exact .inl ⟨w, rfl, .inr (.inl (by simpa only [OkE] using h))⟩
  | .bool b, _ => cases b with
    | true => exact .inl ⟨_, rfl, .inr (.inr (.inl rfl))⟩
    | false => exact .inl ⟨_, rfl, .inr (.inr (.inr rfl))⟩
  | .post e s, h => rw [first]; exact first_starts e (by simp only [OkE] at h; exact h.1)
  | .un op e, h =>
    simp only [OkE] at h
    rcases h.1 with rfl | rfl | rfl
    · exact .inr (.inr (.inl rfl))
    · exact .inr (.inr (.inr (.inl rfl)))
    · exact .inr (.inr (.inr (.inr rfl)))
  | .shift e t, h => rw [first]; exact first_starts e (by simp only [OkE] at h; exact h.1)
  | .eq _ a _, h => rw [first]; exact first_starts a (by simp only [OkE] at h; exact h.2.1)
  | .and a _, h => rw [first]; exact first_starts a (by simp only [OkE] at h; exact h.1)
  | .assign a _, h => rw [first]; exact first_starts a (by simp only [OkE] at h; exact h.1)

/-- A prefix operator only starts an expression of level 4 or lower -/
theorem first_high (e : Expr) (h : OkE e) (hl : 5 ≤ lvl e) : (∃ w, first e = .word w) ∨ ∃ s, first e = .str s := by
  match e, h, hl with
  | .name q, _, _ => exact .inl ⟨_, rfl⟩
  | .str s, _, _ => exact .inr ⟨s, rfl⟩
  | .num w, _, _ => exact .inl ⟨_, rfl⟩
  | .bool b, _, _ => exact .inl ⟨_, rfl⟩
  | .post e s, h, _ =>
    simp only [OkE] at h
    rw [first]
    exact first_high e h.1 (by rw [h.2.1]; decide)

/-! ### expressions come back -/

/-- The parser finds `e` at level `l`, whatever follows that does not continue it -/
def Back (e : Expr) (l : Nat) : Prop :=
  ∀ rest, Follow l rest → ∀ n, 16 * (pE e).length + 6 ≤ n + l → expr n l (pE e ++ rest) = some (e, rest)

theorem next_first {e : Expr} (h : OkE e) (t : Tok) (rest : List Tok) : next t (pE e ++ rest) = decide (first e = t) := by
  obtain ⟨r, hr⟩ := pE_first e h
  rw [hr]
  simp [next]

theorem tail_stop {rest : List Tok} (hf : Follow 3 rest) {n : Nat} (hn : 1 ≤ n) : tail n rest = some (.nil, rest) := by
  obtain ⟨n, rfl⟩ : ∃ m, n = m + 1 := ⟨n - 1, by omega⟩
  simp only [tail, hf.next (o := c!"<<") (by decide) (Nat.le_refl 3), hf.next (o := c!">>") (by decide) (Nat.le_refl 3),
    Bool.false_eq_true, if_false]

theorem suf_stop {rest : List Tok} (hf : Follow 5 rest) {n : Nat} (hn : 1 ≤ n) : suf n rest = some (.nil, rest) := by
  obtain ⟨n, rfl⟩ : ∃ m, n = m + 1 := ⟨n - 1, by omega⟩
  simp only [suf, hf.next (o := c!".") (by decide) (Nat.le_refl 5), hf.next (o := c!"->") (by decide) (Nat.le_refl 5),
    hf.next (o := c!"<") (by decide) (Nat.le_refl 5), hf.next (o := c!"(") (by decide) (Nat.le_refl 5), Bool.false_eq_true, if_false]

/-- From one level to the one below -/
theorem Back.down {e : Expr} (h : OkE e) {l : Nat} (hl : l < 5) (hle : l < lvl e) (hb : Back e (l + 1)) : Back e l := by
  intro rest hf n hn
  have hpos := pE_pos e h
  obtain ⟨n, rfl⟩ : ∃ m, n = m + 1 := ⟨n - 1, by omega⟩
  have he := hb rest (hf.mono (Nat.le_succ l)) n (by omega)
  match l, hl with
  | 0, _ => simp only [expr, he, bind, Option.bind, hf.next (o := c!"=") (by decide) (Nat.le_refl 0), Bool.false_eq_true, if_false]
  | 1, _ => simp only [expr, he, bind, Option.bind, hf.next (o := c!"&&") (by decide) (Nat.le_refl 1), Bool.false_eq_true, if_false]
  | 2, _ =>
    simp only [expr, he, bind, Option.bind, hf.next (o := c!"==") (by decide) (Nat.le_refl 2),
      hf.next (o := c!"!=") (by decide) (Nat.le_refl 2), Bool.false_eq_true, if_false]
  | 3, _ => simp only [expr, he, bind, Option.bind, tail_stop hf (by omega : 1 ≤ n)]
  | 4, _ =>
    have hop : ∀ o, next (.op o) (pE e ++ rest) = false := by
      intro o
      rw [next_first h]
      rcases first_high e h hle with ⟨w, hw⟩ | ⟨s, hs⟩
      · simp [hw]
      · simp [hs]
    simp only [expr, hop, Bool.false_eq_true, if_false]
    exact he

theorem Back.all {e : Expr} (h : OkE e) {m : Nat} (hm : m ≤ 5) (hle : m ≤ lvl e) (hb : Back e m) :
    ∀ l, l ≤ m → Back e l := by
  intro l hl
  obtain ⟨d, hd⟩ : ∃ d, d = m - l := ⟨_, rfl⟩
  induction d generalizing l with
  | zero => rwa [show l = m by omega]
  | succ d ih => exact Back.down h (by omega) (by omega) (ih (l + 1) (by omega) (by omega))

theorem isNum_true {w : Str} (h : isNum w = true) : w ≠ c!"true" ∧ w ≠ c!"false" := by
  constructor <;> (rintro rfl; exact absurd h (by decide))

theorem isNum_ident {w : Str} (h : isIdent w = true) : isNum w = false := by
  cases w with
  | nil => rfl
  | cons c w =>
    rw [Bool.eq_false_iff]
    intro hn
    simp only [isIdent, isNum, List.head?_cons, Option.any_some, Bool.and_eq_true, List.all_cons, Bool.not_eq_true'] at h hn
    rw [h.1.1.2] at hn
    simp at hn

theorem primary_print {e : Expr} (h : OkE e) (hl : lvl e = 6) {rest : List Tok} (hr : next (.op c!"::") rest = false) :
    primary (pE e ++ rest) = some (e, rest) := by
  match e, h with
  | .name [], h => exact absurd rfl h.1
  | .name (w :: q), h =>
    have hw := h.2 w (by simp)
    have := qname_print h hr
    rw [pE]
    show primary (.word w :: (qrest q ++ rest)) = _
    rw [primary, if_neg (ident_not hw (by decide)), if_neg (ident_not hw (by decide)), if_neg (by rw [isNum_ident hw]; decide)]
    show (qname (pq (w :: q) ++ rest)).map _ = _
    rw [this]; rfl
  | .str s, _ => rfl
  | .num w, h =>
    simp only [OkE] at h
    rw [pE]
    show primary (.word w :: rest) = _
    rw [primary, if_neg (isNum_true h).1, if_neg (isNum_true h).2, if_pos h]
  | .bool true, _ => rfl
  | .bool false, _ => rfl
  | .post _ _, _ => simp [lvl] at hl
  | .un _ _, _ => simp [lvl] at hl
  | .shift _ _, _ => simp [lvl] at hl
  | .eq _ _ _, _ => simp [lvl] at hl
  | .and _ _, _ => simp [lvl] at hl
  | .assign _ _, _ => simp [lvl] at hl

/-- The first token of what follows a name -/
theorem next_suf {s : Suf} {rest : List Tok} (hf : Follow 5 rest) : next (.op c!"::") (pS s ++ rest) = false := by
  cases s with
  | nil => rw [pS]; exact hf.next (k := 6) (by decide) (by decide)
  | dot f s => rw [pS]; rfl
  | arrow f s => rw [pS]; rfl
  | inst t s => rw [pS]; rfl
  | call a s => rw [pS]; rfl

theorem follow_tail {t : Tail} (h : OkT t) {rest : List Tok} (hf : Follow 3 rest) : Follow 4 (pT t ++ rest) := by
  cases t with
  | nil => rw [pT]; exact hf.mono (by decide)
  | cons op e t =>
    simp only [OkT] at h
    rw [pT]
    rcases h.1 with rfl | rfl
    · exact follow_op (k := 3) (by decide) (by decide) _
    · exact follow_op (k := 3) (by decide) (by decide) _

theorem back_primary {e : Expr} (h : OkE e) (hl : lvl e = 6) : Back e 5 := by
  intro rest hf n hn
  have hpos := pE_pos e h
  obtain ⟨n, rfl⟩ : ∃ m, n = m + 1 := ⟨n - 1, by omega⟩
  simp only [expr, primary_print h hl (hf.next (k := 6) (by decide) (by decide)), bind, Option.bind, suf_stop hf (by omega : 1 ≤ n)]

mutual

theorem back (e : Expr) (h : OkE e) : Back e (min (lvl e) 5) := by
  match e, h with
  | .name q, h => exact back_primary h rfl
  | .str s, h => exact back_primary h rfl
  | .num w, h => exact back_primary h rfl
  | .bool b, h => exact back_primary h rfl
  | .post a s, h =>
    simp only [OkE] at h
    intro rest hf n hn
    change Follow 5 rest at hf
    simp only [pE, List.length_append, lvl] at hn
    have hpos := pE_pos a h.1
    obtain ⟨n, rfl⟩ : ∃ m, n = m + 1 := ⟨n - 1, by omega⟩
    rw [pE, List.append_assoc]
    show expr (n + 1) 5 _ = _
    simp only [expr, primary_print h.1 h.2.1 (next_suf hf), bind, Option.bind, suf_print s h.2.2.2 rest hf n (by omega)]
    cases hs : s with
    | nil => exact absurd hs h.2.2.1
    | dot f s => rfl
    | arrow f s => rfl
    | inst t s => rfl
    | call a s => rfl
  | .un op a, h =>
    simp only [OkE] at h
    intro rest hf n hn
    change Follow 4 rest at hf
    simp only [pE, List.length_cons, lvl] at hn
    obtain ⟨n, rfl⟩ : ∃ m, n = m + 1 := ⟨n - 1, by omega⟩
    have := (back a h.2.1).all h.2.1 (Nat.min_le_right _ _) (Nat.min_le_left _ _) 4 (by omega) rest hf n (by omega)
    rw [pE]
    show expr (n + 1) 4 (.op op :: (pE a ++ rest)) = _
    rcases h.1 with rfl | rfl | rfl
    · rw [expr, if_pos (by rfl)]; simp only [List.tail_cons, this, Option.map_some]
    · rw [expr, if_neg (by simp [next]), if_pos (by rfl)]; simp only [List.tail_cons, this, Option.map_some]
    · rw [expr, if_neg (by simp [next]), if_neg (by simp [next]), if_pos (by rfl)]; simp only [List.tail_cons, this, Option.map_some]
  | .shift a t, h =>
    simp only [OkE] at h
    intro rest hf n hn
    change Follow 3 rest at hf
    simp only [pE, List.length_append, lvl] at hn
    have hpos := pE_pos a h.1
    obtain ⟨n, rfl⟩ : ∃ m, n = m + 1 := ⟨n - 1, by omega⟩
    have h1 := (back a h.1).all h.1 (Nat.min_le_right _ _) (Nat.min_le_left _ _) 4 (by omega) (pT t ++ rest)
      (follow_tail h.2.2.2 hf) n (by omega)
    rw [pE, List.append_assoc]
    show expr (n + 1) 3 _ = _
    simp only [expr, h1, bind, Option.bind, tail_print t h.2.2.2 rest hf n (by omega)]
    cases ht : t with
    | nil => exact absurd ht h.2.2.1
    | cons op e t => rfl
  | .eq op a b, h =>
    simp only [OkE] at h
    intro rest hf n hn
    change Follow 2 rest at hf
    simp only [pE, List.length_append, List.length_cons, lvl] at hn
    have hpos := pE_pos a h.2.1
    obtain ⟨n, rfl⟩ : ∃ m, n = m + 1 := ⟨n - 1, by omega⟩
    have hfo : Follow 3 (.op op :: (pE b ++ rest)) := by
      rcases h.1 with rfl | rfl
      · exact follow_op (k := 2) (by decide) (by decide) _
      · exact follow_op (k := 2) (by decide) (by decide) _
    have h1 := (back a h.2.1).all h.2.1 (Nat.min_le_right _ _) (Nat.min_le_left _ _) 3 (by omega) (.op op :: (pE b ++ rest))
      hfo n (by omega)
    have h2 := (back b h.2.2.2.1).all h.2.2.2.1 (Nat.min_le_right _ _) (Nat.min_le_left _ _) 3 (by omega) rest
      (hf.mono (by decide)) n (by omega)
    rw [pE, List.append_assoc, List.cons_append]
    show expr (n + 1) 2 _ = _
    simp only [expr, h1, bind, Option.bind, next_op, List.tail_cons, h2]
    rcases h.1 with rfl | rfl
    · rfl
    · rfl
  | .and a b, h =>
    simp only [OkE] at h
    intro rest hf n hn
    change Follow 1 rest at hf
    simp only [pE, List.length_append, List.length_cons, lvl] at hn
    have hpos := pE_pos a h.1
    obtain ⟨n, rfl⟩ : ∃ m, n = m + 1 := ⟨n - 1, by omega⟩
    have h1 := (back a h.1).all h.1 (Nat.min_le_right _ _) (Nat.min_le_left _ _) 2 (by omega) (.op c!"&&" :: (pE b ++ rest))
      (follow_op (k := 1) (by decide) (by decide) _) n (by omega)
    have h2 := (back b h.2.2.1).all h.2.2.1 (Nat.min_le_right _ _) (Nat.min_le_left _ _) 1 (by omega) rest hf n (by omega)
    rw [pE, List.append_assoc, List.cons_append]
    show expr (n + 1) 1 _ = _
    simp only [expr, h1, bind, Option.bind, next_op, List.tail_cons, h2]
    rfl
  | .assign a b, h =>
    simp only [OkE] at h
    intro rest hf n hn
    change Follow 0 rest at hf
    simp only [pE, List.length_append, List.length_cons, lvl] at hn
    have hpos := pE_pos a h.1
    obtain ⟨n, rfl⟩ : ∃ m, n = m + 1 := ⟨n - 1, by omega⟩
    have h1 := (back a h.1).all h.1 (Nat.min_le_right _ _) (Nat.min_le_left _ _) 1 (by omega) (.op c!"=" :: (pE b ++ rest))
      (follow_op (k := 0) (by decide) (by decide) _) n (by omega)
    have h2 := (back b h.2.2).all h.2.2 (Nat.min_le_right _ _) (Nat.min_le_left _ _) 0 (by omega) rest hf n (by omega)
    rw [pE, List.append_assoc, List.cons_append]
    show expr (n + 1) 0 _ = _
    simp only [expr, h1, bind, Option.bind, next_op, List.tail_cons, h2]
    rfl
termination_by (sizeOf e, 0)

theorem suf_print (s : Suf) (h : OkS s) (rest : List Tok) (hf : Follow 5 rest) (n : Nat) (hn : 16 * (pS s).length + 1 ≤ n) :
    suf n (pS s ++ rest) = some (s, rest) := by
  match s, h with
  | .nil, _ => rw [pS]; exact suf_stop hf (by omega)
  | .dot f s, h =>
    simp only [OkS] at h
    simp only [pS, List.length_cons] at hn
    obtain ⟨n, rfl⟩ : ∃ m, n = m + 1 := ⟨n - 1, by omega⟩
    have := suf_print s h.2 rest hf n (by omega)
    rw [pS, suf]
    simp only [List.cons_append, next_op, List.tail_cons, ident_word h.1, bind, Option.bind, this]
    rfl
  | .arrow f s, h =>
    simp only [OkS] at h
    simp only [pS, List.length_cons] at hn
    obtain ⟨n, rfl⟩ : ∃ m, n = m + 1 := ⟨n - 1, by omega⟩
    have := suf_print s h.2 rest hf n (by omega)
    rw [pS, suf]
    simp only [List.cons_append, next_op, List.tail_cons, ident_word h.1, bind, Option.bind, this]
    rfl
  | .inst t s, h =>
    simp only [OkS] at h
    simp only [pS, List.length_cons, List.length_append] at hn
    obtain ⟨n, rfl⟩ : ∃ m, n = m + 1 := ⟨n - 1, by omega⟩
    have := suf_print s h.2 rest hf n (by omega)
    rw [pS, suf]
    simp only [List.cons_append, List.append_assoc, next_op, List.tail_cons,
      type_print h.1 (rest := .op c!">" :: (pS s ++ rest)) rfl rfl rfl, expect_cons, bind, Option.bind, this]
    rfl
  | .call a s, h =>
    simp only [OkS] at h
    simp only [pS, List.length_cons, List.length_append] at hn
    obtain ⟨n, rfl⟩ : ∃ m, n = m + 1 := ⟨n - 1, by omega⟩
    have h2 := suf_print s h.2 rest hf n (by omega)
    have h1 := args_print a h.1 c!")" (.inl rfl) (pS s ++ rest) n (by omega)
    rw [pS, suf]
    simp only [List.cons_append, List.append_assoc, next_op, List.tail_cons, h1, bind, Option.bind, h2]
    rfl
termination_by (sizeOf s, 0)

theorem args_print (a : Args) (h : OkA a) (close : Str) (hc : close = c!")" ∨ close = c!"}") (rest : List Tok) (n : Nat)
    (hn : 16 * (pA a).length + 9 ≤ n) : args n close (pA a ++ .op close :: rest) = some (a, rest) := by
  match a, h with
  | .nil, _ =>
    obtain ⟨n, rfl⟩ : ∃ m, n = m + 1 := ⟨n - 1, by omega⟩
    rw [pA, args, List.nil_append, next_op, if_pos (by simp), List.tail_cons]
  | .cons e a, h =>
    obtain ⟨n, rfl⟩ : ∃ m, n = m + 1 := ⟨n - 1, by omega⟩
    have h1 := args1_print e a h close hc rest n (by omega)
    simp only [OkA] at h
    have hnx : next (.op close) (pA (.cons e a) ++ .op close :: rest) = false := by
      have he : ∃ r, pA (.cons e a) = pE e ++ r := by
        cases a with
        | nil => exact ⟨[], by rw [pA]; simp⟩
        | cons e' a => exact ⟨_, by rw [pA]; intro h; cases h⟩
      obtain ⟨r, hr⟩ := he
      rw [hr, List.append_assoc, next_first h.1]
      rcases first_starts e h.1 with ⟨w, hw, _⟩ | ⟨s, hs⟩ | hs | hs | hs
      · simp [hw]
      · simp [hs]
      · rw [hs]; rcases hc with rfl | rfl <;> decide
      · rw [hs]; rcases hc with rfl | rfl <;> decide
      · rw [hs]; rcases hc with rfl | rfl <;> decide
    rw [args, hnx, if_neg (by decide)]
    exact h1
termination_by (sizeOf a, 1)

theorem args1_print (e : Expr) (a : Args) (h : OkA (.cons e a)) (close : Str) (hc : close = c!")" ∨ close = c!"}")
    (rest : List Tok) (n : Nat) (hn : 16 * (pA (.cons e a)).length + 8 ≤ n) :
    args1 n close (pA (.cons e a) ++ .op close :: rest) = some (.cons e a, rest) := by
  have hb : binds (.op close) = none := by rcases hc with rfl | rfl <;> decide
  have hcc : close ≠ c!"," := by rcases hc with rfl | rfl <;> decide
  match a, h, hn with
  | .nil, h, hn =>
    simp only [OkA] at h
    obtain ⟨n, rfl⟩ : ∃ m, n = m + 1 := ⟨n - 1, by omega⟩
    rw [pA] at hn ⊢
    have hE := (back e h.1).all h.1 (Nat.min_le_right _ _) (Nat.min_le_left _ _) 0 (by omega)
    have h1 := hE (.op close :: rest) (follow_none hb _) n (by omega)
    simp only [args1, h1, bind, Option.bind, next_op, decide_eq_false hcc, Bool.false_eq_true, if_false, expect_cons]
  | .cons e' a, h, hn =>
    have h' := h
    rw [OkA] at h
    obtain ⟨n, rfl⟩ : ∃ m, n = m + 1 := ⟨n - 1, by omega⟩
    have hp : pA (.cons e (.cons e' a)) = pE e ++ .op c!"," :: pA (.cons e' a) := by rw [pA]; intro h; cases h
    rw [hp] at hn ⊢
    simp only [List.length_append, List.length_cons] at hn
    have hE := (back e h.1).all h.1 (Nat.min_le_right _ _) (Nat.min_le_left _ _) 0 (by omega)
    have h1 := hE (.op c!"," :: (pA (.cons e' a) ++ .op close :: rest)) (follow_none (by decide) _) n (by omega)
    have h2 := args1_print e' a h.2 close hc rest n (by omega)
    rw [List.append_assoc, List.cons_append, args1]
    simp only [h1, bind, Option.bind, next_op, List.tail_cons, h2]
    rfl
termination_by (1 + sizeOf e + sizeOf a, 0)

theorem tail_print (t : Tail) (h : OkT t) (rest : List Tok) (hf : Follow 3 rest) (n : Nat) (hn : 16 * (pT t).length + 1 ≤ n) :
    tail n (pT t ++ rest) = some (t, rest) := by
  match t, h with
  | .nil, _ => rw [pT]; exact tail_stop hf (by omega)
  | .cons op e t, h =>
    simp only [OkT] at h
    simp only [pT, List.length_cons, List.length_append] at hn
    obtain ⟨n, rfl⟩ : ∃ m, n = m + 1 := ⟨n - 1, by omega⟩
    have h2 := tail_print t h.2.2.2 rest hf n (by omega)
    have h1 := (back e h.2.1).all h.2.1 (Nat.min_le_right _ _) (Nat.min_le_left _ _) 4 (by omega) (pT t ++ rest)
      (follow_tail h.2.2.2 hf) n (by omega)
    rw [pT, tail]
    simp only [List.cons_append, List.append_assoc, next_op, List.tail_cons, h1, h2, bind, Option.bind]
    rcases h.1 with rfl | rfl
    · rfl
    · rfl
termination_by (sizeOf t, 0)

end

/-- An expression comes back, at its level or below -/
theorem expr_print {e : Expr} (h : OkE e) {l : Nat} (hl : l ≤ lvl e) (hl5 : l ≤ 5) {rest : List Tok} (hf : Follow l rest) {n : Nat}
    (hn : 16 * (pE e).length + 6 ≤ n + l) : expr n l (pE e ++ rest) = some (e, rest) :=
  (back e h).all h (Nat.min_le_right _ _) (Nat.min_le_left _ _) l (by omega) rest hf n hn

/-! ### statements -/

mutual

def pSt : Stmt → List Tok
  | .skip => []
  | .expr e => pE e ++ [.op c!";"]
  | .decl t x => pType t ++ [.word x, .op c!";"]
  | .declEq t x e => pType t ++ .word x :: .op c!"=" :: (pE e ++ [.op c!";"])
  | .declBraces t x a => pType t ++ .word x :: .op c!"{" :: (pA a ++ [.op c!"}", .op c!";"])
  | .ret => [.word c!"return", .op c!";"]
  | .retVal e => .word c!"return" :: (pE e ++ [.op c!";"])
  | .brk => [.word c!"break", .op c!";"]
  | .ite c a .skip => .word c!"if" :: .op c!"(" :: (pE c ++ .op c!")" :: pSt a)
  | .ite c a b => .word c!"if" :: .op c!"(" :: (pE c ++ .op c!")" :: (pSt a ++ .word c!"else" :: pSt b))
  | .switch e b => .word c!"switch" :: .op c!"(" :: (pE e ++ .op c!")" :: .op c!"{" :: (pSs b ++ [.op c!"}"]))
  | .case e => .word c!"case" :: (pE e ++ [.op c!":"])
  | .dflt => [.word c!"default", .op c!":"]
  | .block b => .op c!"{" :: (pSs b ++ [.op c!"}"])
  | .loop t x e c s b =>
    .word c!"for" :: .op c!"(" :: (pType t ++ .word x :: .op c!"=" :: (pE e ++ .op c!";" :: (pE c ++ .op c!";" ::
      (pE s ++ .op c!")" :: pSt b))))

def pSs : Stmts → List Tok
  | .nil => []
  | .cons s ss => pSt s ++ pSs ss

end

/-- Statements that an `else` cannot belong to -/
def Closed : Stmt → Prop
  | .skip => False
  | .ite _ _ _ => False
  | .loop _ _ _ _ _ _ => False
  | _ => True

mutual

def OkSt : Stmt → Prop
  | .skip => False
  | .expr e => OkE e
  | .decl t x => OkType t ∧ isIdent x = true
  | .declEq t x e => OkType t ∧ isIdent x = true ∧ OkE e
  | .declBraces t x a => OkType t ∧ isIdent x = true ∧ OkA a
  | .ret => True
  | .retVal e => OkE e
  | .brk => True
  | .ite c a .skip => OkE c ∧ OkSt a
  | .ite c a b => OkE c ∧ OkSt a ∧ Closed a ∧ OkSt b
  | .switch e b => OkE e ∧ OkSs b
  | .case e => OkE e ∧ 2 ≤ lvl e
  | .dflt => True
  | .block b => OkSs b
  | .loop t x e c s b => OkType t ∧ isIdent x = true ∧ OkE e ∧ OkE c ∧ OkE s ∧ OkSt b

def OkSs : Stmts → Prop
  | .nil => True
  | .cons s ss => OkSt s ∧ OkSs ss

end

theorem pType_head {t : CType} (h : OkType t) :
    ∃ w r, pType t = .word w :: r ∧ (isIdent w = true ∨ w ∈ [c!"const", c!"unsigned"] ++ builtin) := by
  obtain ⟨c, q, l⟩ := t
  cases c with
  | true => exact ⟨_, _, rfl, .inr (by decide)⟩
  | false =>
    rcases h.1 with h | ⟨w, hw, h⟩ | hq
    · simp only at h; subst h; exact ⟨_, _, rfl, .inr (by decide)⟩
    · simp only at h
      subst h
      refine ⟨w, l.map .op, ?_, .inr (List.mem_append_right _ hw)⟩
      show [] ++ (pTypeName [w] ++ _) = _
      rw [pTypeName, if_neg]; · rfl
      rintro ⟨rfl⟩
      exact absurd hw (by decide)
    · simp only at hq
      cases q with
      | nil => exact absurd rfl hq.1
      | cons w q =>
        have hw := hq.2 w (by simp)
        refine ⟨w, qrest q ++ l.map .op, ?_, .inl hw⟩
        show [] ++ (pTypeName (w :: q) ++ _) = _
        rw [pTypeName, if_neg]; · rfl
        intro h
        rw [(List.cons.inj h).1] at hw
        exact absurd hw (by decide)

/-- The words a statement cannot start with, or that mean something else there -/
def control : List Str := [c!"if", c!"switch", c!"case", c!"default", c!"break", c!"return", c!"for", c!"else"]

theorem type_not_control {t : CType} (h : OkType t) (rest : List Tok) {w : Str} (hw : w ∈ control) :
    next (.word w) (pType t ++ rest) = false := by
  obtain ⟨v, r, hv, h⟩ := pType_head h
  rw [hv]
  show next _ (.word v :: (r ++ rest)) = false
  rw [next_word, decide_eq_false_iff_not]
  rintro rfl
  rcases h with h | h
  · exact ident_not h ((by decide : ∀ x ∈ control, x ∈ keywords) v hw) rfl
  · exact (by decide : ∀ x ∈ control, x ∉ [c!"const", c!"unsigned"] ++ builtin) v hw h

theorem type_not_op {t : CType} (h : OkType t) (rest : List Tok) (o : Str) : next (.op o) (pType t ++ rest) = false := by
  obtain ⟨v, r, hv, h⟩ := pType_head h
  rw [hv]; rfl

theorem expr_not_control {e : Expr} (h : OkE e) (rest : List Tok) {w : Str} (hw : w ∈ control) :
    next (.word w) (pE e ++ rest) = false := by
  rw [next_first h, decide_eq_false_iff_not]
  intro he
  rcases first_starts e h with ⟨v, hv, h⟩ | ⟨s, hs⟩ | hs | hs | hs
  · rw [hv] at he
    cases he
    rcases h with h | h | h | h
    · exact ident_not h ((by decide : ∀ x ∈ control, x ∈ keywords) _ hw) rfl
    · exact absurd h ((by decide : ∀ x ∈ control, ¬ isNum x = true) _ hw)
    · subst h; exact absurd hw (by decide)
    · subst h; exact absurd hw (by decide)
  all_goals rw [hs] at he; cases he

theorem expr_not_op {e : Expr} (h : OkE e) (rest : List Tok) {o : Str} (ho : o ≠ c!"!" ∧ o ≠ c!"-" ∧ o ≠ c!"&") :
    next (.op o) (pE e ++ rest) = false := by
  rw [next_first h, decide_eq_false_iff_not]
  intro he
  rcases first_starts e h with ⟨v, hv, h⟩ | ⟨s, hs⟩ | hs | hs | hs
  · rw [hv] at he; cases he
  · rw [hs] at he; cases he
  · rw [hs] at he; cases he; exact absurd rfl ho.1
  · rw [hs] at he; cases he; exact absurd rfl ho.2.1
  · rw [hs] at he; cases he; exact absurd rfl ho.2.2

/-- An operator that ends a name and is no part of a type -/
def Ends (r : List Tok) : Prop := ∃ o t, r = .op o :: t ∧ o ≠ c!"::" ∧ o ≠ c!"*" ∧ o ≠ c!"&"

theorem ends_op {o : Str} (h : o ≠ c!"::" ∧ o ≠ c!"*" ∧ o ≠ c!"&") (t : List Tok) : Ends (.op o :: t) := ⟨o, t, rfl, h⟩

theorem ends_suf (s : Suf) (hs : s ≠ .nil) (rest : List Tok) : Ends (pS s ++ rest) := by
  cases s with
  | nil => exact absurd rfl hs
  | dot f s => rw [pS]; exact ends_op (by decide) _
  | arrow f s => rw [pS]; exact ends_op (by decide) _
  | inst t s => rw [pS]; exact ends_op (by decide) _
  | call a s => rw [pS]; exact ends_op (by decide) _

/-- An expression starts with a name that an operator follows, or with something that is no type -/
theorem lead (e : Expr) (h : OkE e) (rest : List Tok) (hr : Ends rest) :
    (∃ q r, OkQ q ∧ pE e ++ rest = pq q ++ r ∧ Ends r) ∨
      ∃ t r, pE e ++ rest = t :: r ∧ ∀ w, t = .word w → isNum w = true ∨ w = c!"true" ∨ w = c!"false" := by
  match e, h with
  | .name q, h => exact .inl ⟨q, rest, h, by rw [pE], hr⟩
  | .str s, _ => exact .inr ⟨.str s, rest, by rw [pE]; rfl, fun w h => nomatch h⟩
  | .num w, h => exact .inr ⟨.word w, rest, by rw [pE]; rfl, fun v hv => by cases hv; exact .inl (by simpa only [OkE] using h)⟩
  | .bool true, _ => exact .inr ⟨_, rest, by rw [pE]; rfl, fun v hv => by cases hv; exact .inr (.inl rfl)⟩
  | .bool false, _ => exact .inr ⟨_, rest, by rw [pE]; rfl, fun v hv => by cases hv; exact .inr (.inr rfl)⟩
  | .post a s, h =>
    simp only [OkE] at h
    rw [pE, List.append_assoc]
    exact lead a h.1 _ (ends_suf s h.2.2.1 rest)
  | .un op a, _ => exact .inr ⟨.op op, _, by rw [pE]; rfl, fun w h => nomatch h⟩
  | .shift a .nil, h => simp only [OkE] at h; exact absurd rfl h.2.2.1
  | .shift a (.cons op b t), h =>
    simp only [OkE, OkT] at h
    rw [pE, List.append_assoc, pT]
    refine lead a h.1 _ (ends_op ?_ _)
    rcases h.2.2.2.1 with rfl | rfl <;> decide
  | .eq op a b, h =>
    simp only [OkE] at h
    rw [pE, List.append_assoc]
    refine lead a h.2.1 _ (ends_op ?_ _)
    rcases h.1 with rfl | rfl <;> decide
  | .and a b, h =>
    simp only [OkE] at h
    rw [pE, List.append_assoc]
    exact lead a h.1 _ (ends_op (by decide) _)
  | .assign a b, h =>
    simp only [OkE] at h
    rw [pE, List.append_assoc]
    exact lead a h.1 _ (ends_op (by decide) _)

theorem type_none {t : Tok} {r : List Tok} (h : ∀ w, t = .word w → isNum w = true ∨ w = c!"true" ∨ w = c!"false") :
    type (t :: r) = none := by
  cases t with
  | str s => rfl
  | op o => rfl
  | dir s => rfl
  | bad => rfl
  | word w =>
    have hw := h w rfl
    have hk : isIdent w = false := by
      rcases hw with hw | rfl | rfl
      · cases hi : isIdent w with
        | false => rfl
        | true => rw [isNum_ident hi] at hw; cases hw
      · decide
      · decide
    have hne : ∀ k ∈ [c!"const", c!"unsigned"] ++ builtin, w ≠ k := by
      intro k hk
      rcases hw with hw | rfl | rfl
      · rintro rfl
        exact absurd hw ((by decide : ∀ x ∈ [c!"const", c!"unsigned"] ++ builtin, ¬ isNum x = true) w hk)
      · rintro rfl; exact absurd hk (by decide)
      · rintro rfl; exact absurd hk (by decide)
    have hb : builtin.contains w = false := by
      rw [Bool.eq_false_iff]
      intro hc
      rw [List.contains_iff_mem] at hc
      exact hne w (List.mem_append_right _ hc) rfl
    have h1 : w ≠ c!"const" := hne _ (by decide)
    have h2 : w ≠ c!"unsigned" := hne _ (by decide)
    rw [type, next_word, if_neg (by simpa using h1), typeName, next_word, if_neg (by simpa using h2)]
    show ((if builtin.contains w = true then _ else qname (.word w :: r)) : Option _).map _ = none
    rw [hb, if_neg (by decide), qname, ident, if_neg (by rw [hk]; decide)]
    rfl

/-- A type and a name -/
def typeIdent (ts : List Tok) : Option ((CType × Str) × List Tok) := do
  let (t, ts) ← type ts
  let (x, ts) ← ident ts
  some ((t, x), ts)

theorem typeIdent_expr {e : Expr} (h : OkE e) {rest : List Tok} (hr : Ends rest) : typeIdent (pE e ++ rest) = none := by
  rcases lead e h rest hr with ⟨q, r, hq, he, o, t, ho, h1, h2, h3⟩ | ⟨t, r, he, h⟩
  · have ht := type_print (t := ⟨false, q, []⟩) (rest := r) ⟨.inr (.inr hq), fun o h => nomatch h⟩
      (by rw [ho, next_op]; simpa using h1) (by rw [ho, next_op]; simpa using h2) (by rw [ho, next_op]; simpa using h3)
    have hp : pType ⟨false, q, []⟩ = pq q := by
      have : q ≠ [c!"unsigned int"] := by
        rintro rfl
        exact absurd (hq.2 c!"unsigned int" (by simp)) (by decide)
      simp [pType, pTypeName, this]
    rw [hp] at ht
    rw [typeIdent, he, ht, ho]
    rfl
  · rw [typeIdent, he, type_none h]
    rfl

theorem typeIdent_print {t : CType} (ht : OkType t) {x : Str} (hx : isIdent x = true) (rest : List Tok) :
    typeIdent (pType t ++ .word x :: rest) = some ((t, x), rest) := by
  rw [typeIdent, type_print ht rfl rfl rfl]
  simp only [bind, Option.bind, ident_word hx]

theorem next_append (t u : Tok) (ts rest : List Tok) : next t (u :: ts ++ rest) = next t (u :: ts) := rfl

/-- What a statement starts with -/
theorem pSt_first (s : Stmt) (h : OkSt s) (rest : List Tok) :
    1 ≤ (pSt s).length ∧ next (.op c!"}") (pSt s ++ rest) = false ∧ next (.word c!"else") (pSt s ++ rest) = false := by
  match s, h with
  | .expr e, h =>
    simp only [OkSt] at h
    rw [pSt, List.append_assoc]
    exact ⟨by simp, expr_not_op h _ (by decide), expr_not_control h _ (by decide)⟩
  | .decl t x, h =>
    simp only [OkSt] at h
    rw [pSt, List.append_assoc]
    exact ⟨by simp, type_not_op h.1 _ _, type_not_control h.1 _ (by decide)⟩
  | .declEq t x e, h =>
    simp only [OkSt] at h
    rw [pSt, List.append_assoc]
    exact ⟨by simp only [List.length_append, List.length_cons]; omega, type_not_op h.1 _ _, type_not_control h.1 _ (by decide)⟩
  | .declBraces t x a, h =>
    simp only [OkSt] at h
    rw [pSt, List.append_assoc]
    exact ⟨by simp only [List.length_append, List.length_cons]; omega, type_not_op h.1 _ _, type_not_control h.1 _ (by decide)⟩
  | .ret, _ => rw [pSt]; exact ⟨by simp, rfl, rfl⟩
  | .retVal e, _ => rw [pSt]; exact ⟨by simp, rfl, rfl⟩
  | .brk, _ => rw [pSt]; exact ⟨by simp, rfl, rfl⟩
  | .ite c a b, _ =>
    cases b <;> (rw [pSt]; · exact ⟨by simp, rfl, rfl⟩) <;> (intro h; cases h)
  | .switch e b, _ => rw [pSt]; exact ⟨by simp, rfl, rfl⟩
  | .case e, _ => rw [pSt]; exact ⟨by simp, rfl, rfl⟩
  | .dflt, _ => rw [pSt]; exact ⟨by simp, rfl, rfl⟩
  | .block b, _ => rw [pSt]; exact ⟨by simp, rfl, rfl⟩
  | .loop t x e c s b, _ => rw [pSt]; exact ⟨by simp, rfl, rfl⟩

/-- The last case of a statement, which starts with no control word -/
def plain (n : Nat) (ts : List Tok) : Option (Stmt × List Tok) :=
  match typeIdent ts with
  | some ((t, x), ts) =>
    if next (.op c!"=") ts then do
      let (e, ts) ← expr n 0 ts.tail
      let ts ← expect (.op c!";") ts
      some (.declEq t x e, ts)
    else if next (.op c!"{") ts then do
      let (a, ts) ← args n c!"}" ts.tail
      let ts ← expect (.op c!";") ts
      some (.declBraces t x a, ts)
    else do
      let ts ← expect (.op c!";") ts
      some (.decl t x, ts)
  | none => do
    let (e, ts) ← expr n 0 ts
    let ts ← expect (.op c!";") ts
    some (.expr e, ts)

theorem stmt_plain {n : Nat} {ts : List Tok} (h1 : next (.op c!"{") ts = false) (h2 : ∀ w ∈ control, next (.word w) ts = false) :
    stmt (n + 1) ts = plain n ts := by
  rw [stmt]
  simp only [h1, h2 c!"if" (by decide), h2 c!"switch" (by decide), h2 c!"case" (by decide), h2 c!"default" (by decide),
    h2 c!"break" (by decide), h2 c!"return" (by decide), h2 c!"for" (by decide), Bool.false_eq_true, if_false]
  rfl

mutual

theorem stmt_print (s : Stmt) (h : OkSt s) (rest : List Tok) (hr : Closed s ∨ next (.word c!"else") rest = false) (n : Nat)
    (hn : 16 * (pSt s).length ≤ n) : stmt n (pSt s ++ rest) = some (s, rest) := by
  match s, h, hr, hn with
  | .expr e, h, hr, hn =>
    have hpos := (pSt_first _ h rest).1
    obtain ⟨n, rfl⟩ : ∃ m, n = m + 1 := ⟨n - 1, by omega⟩
    simp only [OkSt] at h
    simp only [pSt, List.length_append, List.length_cons] at hn
    rw [pSt, List.append_assoc, stmt_plain (expr_not_op h _ (by decide)) (fun w hw => expr_not_control h _ hw), plain,
      show typeIdent (pE e ++ ([.op c!";"] ++ rest)) = none from typeIdent_expr h (ends_op (by decide) _)]
    simp only [List.cons_append, List.nil_append, expr_print h (Nat.zero_le _) (Nat.zero_le _) (rest := .op c!";" :: rest)
      (follow_none (by decide) _) (n := n) (by omega), bind, Option.bind, expect_cons]
  | .decl t x, h, hr, hn =>
    have hpos := (pSt_first _ h rest).1
    obtain ⟨n, rfl⟩ : ∃ m, n = m + 1 := ⟨n - 1, by omega⟩
    simp only [OkSt] at h
    rw [pSt, List.append_assoc, stmt_plain (type_not_op h.1 _ _) (fun w hw => type_not_control h.1 _ hw), plain]
    simp only [List.cons_append, List.nil_append, typeIdent_print h.1 h.2, next_op, bind, Option.bind, expect_cons]
    rfl
  | .declEq t x e, h, hr, hn =>
    have hpos := (pSt_first _ h rest).1
    obtain ⟨n, rfl⟩ : ∃ m, n = m + 1 := ⟨n - 1, by omega⟩
    simp only [OkSt] at h
    simp only [pSt, List.length_append, List.length_cons] at hn
    rw [pSt, List.append_assoc, stmt_plain (type_not_op h.1 _ _) (fun w hw => type_not_control h.1 _ hw), plain]
    simp only [List.cons_append, List.append_assoc, List.nil_append, typeIdent_print h.1 h.2.1, next_op, List.tail_cons,
      expr_print h.2.2 (Nat.zero_le _) (Nat.zero_le _) (rest := .op c!";" :: rest) (follow_none (by decide) _) (n := n) (by omega),
      bind, Option.bind, expect_cons]
    rfl
  | .declBraces t x a, h, hr, hn =>
    have hpos := (pSt_first _ h rest).1
    obtain ⟨n, rfl⟩ : ∃ m, n = m + 1 := ⟨n - 1, by omega⟩
    simp only [OkSt] at h
    simp only [pSt, List.length_append, List.length_cons] at hn
    rw [pSt, List.append_assoc, stmt_plain (type_not_op h.1 _ _) (fun w hw => type_not_control h.1 _ hw), plain]
    simp only [List.cons_append, List.append_assoc, List.nil_append, typeIdent_print h.1 h.2.1, next_op, List.tail_cons,
      args_print a h.2.2 c!"}" (.inr rfl) (.op c!";" :: rest) n (by omega), bind, Option.bind, expect_cons]
    rfl
  | .ret, h, hr, hn =>
    have hpos := (pSt_first _ h rest).1
    obtain ⟨n, rfl⟩ : ∃ m, n = m + 1 := ⟨n - 1, by omega⟩
    rw [pSt, stmt]; rfl
  | .retVal e, h, hr, hn =>
    have hpos := (pSt_first _ h rest).1
    obtain ⟨n, rfl⟩ : ∃ m, n = m + 1 := ⟨n - 1, by omega⟩
    simp only [OkSt] at h
    simp only [pSt, List.length_append, List.length_cons] at hn
    have hs := expr_not_op h (.op c!";" :: rest) (o := c!";") (by decide)
    have he := expr_print h (Nat.zero_le _) (Nat.zero_le _) (rest := .op c!";" :: rest) (follow_none (by decide) _) (n := n) (by omega)
    rw [pSt, stmt]
    simp only [List.cons_append, List.append_assoc, List.nil_append, next_word_op, next_word, next_op_word, List.tail_cons, hs, he,
      bind, Option.bind, expect_cons]
    rfl
  | .brk, h, hr, hn =>
    have hpos := (pSt_first _ h rest).1
    obtain ⟨n, rfl⟩ : ∃ m, n = m + 1 := ⟨n - 1, by omega⟩
    rw [pSt, stmt]; rfl
  | .switch e b, h, hr, hn =>
    have hpos := (pSt_first _ h rest).1
    obtain ⟨n, rfl⟩ : ∃ m, n = m + 1 := ⟨n - 1, by omega⟩
    simp only [OkSt] at h
    simp only [pSt, List.length_append, List.length_cons] at hn
    have h1 := expr_print h.1 (Nat.zero_le _) (Nat.zero_le _) (rest := .op c!")" :: .op c!"{" :: (pSs b ++ .op c!"}" :: rest))
      (follow_none (by decide) _) (n := n) (by omega)
    have h2 := stmts_print b h.2 rest n (by omega)
    rw [pSt, stmt]
    simp only [List.cons_append, List.append_assoc, List.nil_append, next_word_op, next_word, next_op_word, List.tail_cons,
      h1, h2, bind, Option.bind, expect_cons]
    rfl
  | .case e, h, hr, hn =>
    have hpos := (pSt_first _ h rest).1
    obtain ⟨n, rfl⟩ : ∃ m, n = m + 1 := ⟨n - 1, by omega⟩
    simp only [OkSt] at h
    simp only [pSt, List.length_append, List.length_cons] at hn
    have h1 := expr_print h.1 h.2 (by decide) (rest := .op c!":" :: rest) (follow_none (by decide) _) (n := n) (by omega)
    rw [pSt, stmt]
    simp only [List.cons_append, List.append_assoc, List.nil_append, next_word_op, next_word, next_op_word, List.tail_cons,
      h1, bind, Option.bind, expect_cons]
    rfl
  | .dflt, h, hr, hn =>
    have hpos := (pSt_first _ h rest).1
    obtain ⟨n, rfl⟩ : ∃ m, n = m + 1 := ⟨n - 1, by omega⟩
    rw [pSt, stmt]; rfl
  | .block b, h, hr, hn =>
    have hpos := (pSt_first _ h rest).1
    obtain ⟨n, rfl⟩ : ∃ m, n = m + 1 := ⟨n - 1, by omega⟩
    simp only [OkSt] at h
    simp only [pSt, List.length_append, List.length_cons] at hn
    have h2 := stmts_print b h rest n (by omega)
    rw [pSt, stmt]
    simp only [List.cons_append, List.append_assoc, List.nil_append, next_op, List.tail_cons, h2, bind, Option.bind, expect_cons]
    rfl
  | .loop t x e c s b, h, hr, hn =>
    have hpos := (pSt_first _ h rest).1
    obtain ⟨n, rfl⟩ : ∃ m, n = m + 1 := ⟨n - 1, by omega⟩
    simp only [OkSt] at h
    have hr : next (.word c!"else") rest = false := hr.resolve_left (fun h => h)
    simp only [pSt, List.length_append, List.length_cons] at hn
    have h1 := expr_print h.2.2.1 (Nat.zero_le _) (Nat.zero_le _)
      (rest := .op c!";" :: (pE c ++ .op c!";" :: (pE s ++ .op c!")" :: (pSt b ++ rest)))) (follow_none (by decide) _) (n := n) (by omega)
    have h2 := expr_print h.2.2.2.1 (Nat.zero_le _) (Nat.zero_le _)
      (rest := .op c!";" :: (pE s ++ .op c!")" :: (pSt b ++ rest))) (follow_none (by decide) _) (n := n) (by omega)
    have h3 := expr_print h.2.2.2.2.1 (Nat.zero_le _) (Nat.zero_le _)
      (rest := .op c!")" :: (pSt b ++ rest)) (follow_none (by decide) _) (n := n) (by omega)
    have h4 := stmt_print b h.2.2.2.2.2 rest (.inr hr) n (by omega)
    have ht := type_print h.1 (rest := .word x :: .op c!"=" :: (pE e ++ .op c!";" :: (pE c ++ .op c!";" :: (pE s ++ .op c!")" ::
      (pSt b ++ rest))))) rfl rfl rfl
    rw [pSt, stmt]
    simp only [List.cons_append, List.append_assoc, List.nil_append, next_word_op, next_word, next_op_word, List.tail_cons,
      ht, ident_word h.2.1, h1, h2, h3, h4, bind, Option.bind, expect_cons]
    rfl
  | .ite c a b, h, hr, hn =>
    have hpos := (pSt_first _ h rest).1
    obtain ⟨n, rfl⟩ : ∃ m, n = m + 1 := ⟨n - 1, by omega⟩
    have hr' : next (.word c!"else") rest = false := hr.resolve_left (fun h => h)
    clear hr
    have hr := hr'
    by_cases hb : b = .skip
    · subst hb
      simp only [OkSt] at h
      simp only [pSt, List.length_append, List.length_cons] at hn
      have h1 := expr_print h.1 (Nat.zero_le _) (Nat.zero_le _) (rest := .op c!")" :: (pSt a ++ rest)) (follow_none (by decide) _)
        (n := n) (by omega)
      have h2 := stmt_print a h.2 rest (.inr hr) n (by omega)
      rw [pSt, stmt]
      simp only [List.cons_append, List.append_assoc, List.nil_append, next_word_op, next_word, next_op_word, List.tail_cons,
        h1, h2, hr, bind, Option.bind, expect_cons]
      rfl
    · have hp : pSt (.ite c a b) =
          .word c!"if" :: .op c!"(" :: (pE c ++ .op c!")" :: (pSt a ++ .word c!"else" :: pSt b)) := by
        rw [pSt]; exact hb
      have ho : OkE c ∧ OkSt a ∧ Closed a ∧ OkSt b := by rw [OkSt] at h; · exact h
                                                         · exact hb
      rw [hp] at hn ⊢
      simp only [List.length_append, List.length_cons] at hn
      have h1 := expr_print ho.1 (Nat.zero_le _) (Nat.zero_le _)
        (rest := .op c!")" :: (pSt a ++ .word c!"else" :: (pSt b ++ rest))) (follow_none (by decide) _) (n := n) (by omega)
      have h2 := stmt_print a ho.2.1 (.word c!"else" :: (pSt b ++ rest)) (.inl ho.2.2.1) n (by omega)
      have h3 := stmt_print b ho.2.2.2 rest (.inr hr) n (by omega)
      rw [stmt]
      simp only [List.cons_append, List.append_assoc, List.nil_append, next_word_op, next_word, next_op_word, List.tail_cons,
        h1, h2, h3, bind, Option.bind, expect_cons]
      rfl
termination_by (sizeOf s, 0)

theorem stmts_print (ss : Stmts) (h : OkSs ss) (rest : List Tok) (n : Nat) (hn : 16 * (pSs ss).length + 1 ≤ n) :
    stmts n (pSs ss ++ .op c!"}" :: rest) = some (ss, .op c!"}" :: rest) := by
  match ss, h, hn with
  | .nil, h, hn =>
    obtain ⟨n, rfl⟩ : ∃ m, n = m + 1 := ⟨n - 1, by omega⟩
    rw [pSs, stmts]; rfl
  | .cons s ss, h, hn =>
    obtain ⟨n, rfl⟩ : ∃ m, n = m + 1 := ⟨n - 1, by omega⟩
    simp only [OkSs] at h
    simp only [pSs, List.length_append] at hn
    have hf := pSt_first s h.1 (pSs ss ++ .op c!"}" :: rest)
    have hr : next (.word c!"else") (pSs ss ++ .op c!"}" :: rest) = false := by
      cases ss with
      | nil => rw [pSs]; rfl
      | cons s' ss =>
        simp only [OkSs] at h
        rw [pSs, List.append_assoc]
        exact (pSt_first s' h.2.1 _).2.2
    have h1 := stmt_print s h.1 (pSs ss ++ .op c!"}" :: rest) (.inr hr) n (by omega)
    have h2 := stmts_print ss h.2 rest n (by omega)
    rw [pSs, List.append_assoc, stmts, hf.2.1, if_neg (by decide)]
    simp only [h1, h2, bind, Option.bind]
termination_by (sizeOf ss, 0)

end

end Parse

end Cpp

end Spec

end Rtcg
