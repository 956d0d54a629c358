import Verif.Proofs.CppMainText
import Verif.Proofs.CppOk

/-
convert.h is C++: its tokens are those of its syntax tree.
-/

set_option linter.unusedSimpArgs false

namespace Rtcg

namespace Spec

namespace Cpp

namespace Tree

open Templates Rtcg.Cpp Tmpl

/-- The C++ type for the type of a channel -/
def baseTy (ct : CppConfig.ChannelType) : CType := ct.base.elim (ty []) typeE

/-- What is done to get the value of a message -/
def fromStmts (v : Variant) (ct : CppConfig.ChannelType) : List Stmt :=
  if v = Variant.ros then
    (if ct.base.any (·.isEnum) then
      [.retVal (call [c!"std", c!"string"] [.post (nm c!"msg") (.arrow c!"data" (.dot c!"c_str" (.call .nil .nil)))])]
     else [.retVal (.post (nm c!"msg") (.arrow c!"data" .nil))])
  else [.retVal (nm c!"msg")]

/-- What is done to make a message from a value -/
def toStmts (v : Variant) (ct : CppConfig.ChannelType) : List Stmt :=
  if v = Variant.ros then
    (if ct.base.any (·.isEnum) then
      [.decl (ty [c!"std_msgs", c!"String"]) c!"msg",
       .expr (.assign (.post (nm c!"msg") (.dot c!"data" .nil)) (mcall c!"value" c!"c_str" [])),
       .retVal (nm c!"msg")]
     else [.retVal (nm c!"value")])
  else [.retVal (nm c!"value")]

def fromItem (U : Unicode) (v : Variant) (e : Str × CppConfig.ChannelType) : Item :=
  .fn (some (baseTy e.2)) [convertFrom U e.1] [(⟨true, [channelMsgType U e.1], []⟩, c!"msg")]
    (if e.2.hasOverride then none else some (stmtsOf (fromStmts v e.2)))

def toItem (U : Unicode) (v : Variant) (e : Str × CppConfig.ChannelType) : Item :=
  .fn (some (ty [channelValueType U e.1])) [convertTo U e.1] [({ baseTy e.2 with const := true }, c!"value")]
    (if e.2.hasOverride then none else some (stmtsOf (toStmts v e.2)))

/-- convert.h -/
def convertItems (U : Unicode) (v : Variant) (ctx : CppConfig.Context) : List Item :=
  (sortEntries ctx.channelTypes).map (fromItem U v) ++ (sortEntries ctx.channelTypes).map (toItem U v)

end Tree

open Templates Rtcg.Cpp in
/-- What goes into convert.h can be written in C++ -/
structure GoodConvert (U : Unicode) (ctx : CppConfig.Context) : Prop where
  includes : ∀ i ∈ ctx.includes, OneLine i.src
  channels : ∀ e ∈ ctx.channelTypes, Ident (channelMsgType U e.1) ∧ Ident (channelValueType U e.1) ∧ Ident (convertTo U e.1) ∧
    Ident (convertFrom U e.1) ∧ OneLine e.2.override ∧ ∃ t, e.2.base = some t

namespace Lex

open Tree (stmtsOf argsOf)
open Parse (pSs pSt pItem pItems pE pA pParams pType)
open CppText Templates Rtcg.Cpp Tmpl

variable {U : Unicode} {v : Variant}

theorem typeE_space (t : RsType) (rest : Str) :
    L .idle (stdType t ++ ' ' :: rest) = pType (Tree.typeE t) ++ L .idle rest := by
  unfold stdType Tree.typeE
  cases h1 : t.isEnum <;> cases h2 : t.isNat <;> cases h3 : t.isInt <;> cases h4 : t.isReal <;>
    lexing [Bool.false_eq_true]

theorem line_value (v : Variant) {ct : CppConfig.ChannelType} (h : OneLine ct.override) : OneLine (valueType v ct) := by
  unfold valueType
  cases ct.hasOverride with
  | true => exact h
  | false =>
    simp only [Bool.false_eq_true, if_false]
    by_cases hv : v = Variant.ros
    · rw [if_pos hv]; unfold OneLine; decide
    · rw [if_neg hv]
      cases ct.base with
      | none => rfl
      | some t =>
        show OneLine (stdType t)
        unfold stdType
        cases t.isEnum <;> cases t.isNat <;> cases t.isInt <;> cases t.isReal <;> (unfold OneLine; decide)

theorem line_append {a b : Str} (ha : OneLine a) (hb : OneLine b) : OneLine (a ++ b) := by
  unfold OneLine at *
  rw [List.all_append, ha, hb]
  rfl

theorem line_msg {ch : Str} (h : Ident (channelValueType U ch)) : OneLine (msgType U v ch) := by
  have h1 := plain_line (ident_W h).plain
  unfold msgType
  by_cases hv : v = Variant.ros
  · rw [if_pos hv]; exact line_append h1 (by unfold OneLine; decide)
  · rw [if_neg hv]; exact h1

theorem define_blk (h : Env U v) {a b : Str} (ha : OneLine a) (hb : OneLine b) : Blk (c!"\n#define " ++ a ++ c!" " ++ b) [.dir (c!"define " ++ a ++ c!" " ++ b)] := by
  block h with [ha, hb]

theorem typeE_const (t : RsType) : (Tree.typeE t).const = false := by
  unfold Tree.typeE
  cases t.isEnum <;> cases t.isNat <;> cases t.isInt <;> cases t.isReal <;> rfl

theorem not_unsigned {x : Str} (h : Ident x) : ¬ [x] = [c!"unsigned int"] := by
  intro e
  cases e
  exact absurd h (by unfold Ident; decide)

set_option maxHeartbeats 4000000 in
theorem from_blk (h : Env U v) {e : Str × CppConfig.ChannelType} (h1 : Ident (channelMsgType U e.1)) (h2 : Ident (convertFrom U e.1))
    {t : RsType} (ht : e.2.base = some t) : Blk (fromFunction U v e) (pItem (Tree.fromItem U v e)) := by
  have w1 := ident_W h1
  have w2 := ident_W h2
  have n1 := not_unsigned h1
  have r := typeE_space t
  have hvr : ¬ Variant.animate = Variant.ros := by decide
  refine Or.elim h.v (fun hv => ?_) (fun hv => ?_) <;> subst hv <;> refine ⟨NL.head rfl, fun rest hr => ?_⟩ <;>
    cases ho : e.2.hasOverride <;> cases he : t.isEnum <;>
    lexing [fromFunction, bodyOr, fromBody, Tree.fromItem, Tree.fromStmts, Tree.baseTy, ht, ho, he, hvr, Option.elim_some, Option.any_some,
      Bool.false_eq_true, w1, w2, n1, r, hr]

set_option maxHeartbeats 4000000 in
theorem to_blk (h : Env U v) {e : Str × CppConfig.ChannelType} (h1 : Ident (channelValueType U e.1)) (h2 : Ident (convertTo U e.1))
    {t : RsType} (ht : e.2.base = some t) : Blk (toFunction U v e) (pItem (Tree.toItem U v e)) := by
  have w1 := ident_W h1
  have w2 := ident_W h2
  have n1 := not_unsigned h1
  have r := typeE_space t
  have hc := typeE_const t
  have hvr : ¬ Variant.animate = Variant.ros := by decide
  refine Or.elim h.v (fun hv => ?_) (fun hv => ?_) <;> subst hv <;> refine ⟨NL.head rfl, fun rest hr => ?_⟩ <;>
    cases ho : e.2.hasOverride <;> cases he : t.isEnum <;>
    lexing [toFunction, bodyOr, toBody, Tree.toItem, Tree.toStmts, Tree.baseTy, ht, ho, he, hvr, Option.elim_some, Option.any_some,
      Bool.false_eq_true, w1, w2, n1, r, hr, hc]

/-- The directives of convert.h before its functions: the guard, what it includes, the value types, the message types -/
def convertDirs (U : Unicode) (v : Variant) (ctx : CppConfig.Context) : List Str :=
  [c!"ifndef CONVERT_H_DEFINED", c!"define CONVERT_H_DEFINED"] ++ ctx.includes.map includeDir ++
  (sortEntries ctx.channelTypes).map (fun e => c!"define " ++ channelValueType U e.1 ++ c!" " ++ valueType v e.2) ++
  (sortEntries ctx.channelTypes).map (fun e => c!"define " ++ channelMsgType U e.1 ++ c!" " ++ msgType U v e.1)

theorem flatMap_dir {α : Type} (l : List α) (f : α → Str) : (l.flatMap fun x => [Tok.dir (f x)]) = (l.map f).map .dir := by
  induction l with
  | nil => rfl
  | cons x l ih => rw [List.flatMap_cons, ih]; rfl

theorem guard_run (rest : Str) :
    L .idle (c!"//\n// Conversion functions\n//\n\n#ifndef CONVERT_H_DEFINED\n#define CONVERT_H_DEFINED\n" ++ rest) =
      .dir c!"ifndef CONVERT_H_DEFINED" :: .dir c!"define CONVERT_H_DEFINED" :: L .idle rest := by
  lexing [L_nil]

theorem endif_run : L .idle c!"\n\n#endif // CONVERT_H_DEFINED\n" = [.dir c!"endif // CONVERT_H_DEFINED"] := by
  lexing [L_nil, lexEnd]

set_option maxHeartbeats 4000000 in
/-- The tokens of convert.h: its directives, its syntax tree, and the end of the guard -/
theorem scan_convert (h : Env U v) {ctx : CppConfig.Context} (g : GoodConvert U ctx) :
    scan (convertText U v ctx) =
      (convertDirs U v ctx).map .dir ++ (pItems (Tree.convertItems U v ctx) ++ [.dir c!"endif // CONVERT_H_DEFINED"]) := by
  have hm : ∀ e ∈ sortEntries ctx.channelTypes, e ∈ ctx.channelTypes := fun e he => (Exec.mem_sortEntries _ _).1 he
  have b1 := Blk.flatMap ctx.includes (f := includeLine) (p := fun i => [.dir (includeDir i)]) fun i hi => includeLine_blk h (g.includes i hi)
  have b2 := Blk.flatMap (sortEntries ctx.channelTypes) (f := fun e => c!"\n#define " ++ channelValueType U e.1 ++ c!" " ++ valueType v e.2)
    (p := fun e => [.dir (c!"define " ++ channelValueType U e.1 ++ c!" " ++ valueType v e.2)])
    fun e he => define_blk h (plain_line (ident_W (g.channels e (hm e he)).2.1).plain) (line_value v (g.channels e (hm e he)).2.2.2.2.1)
  have b3 := Blk.flatMap (sortEntries ctx.channelTypes) (f := fun e => c!"\n#define " ++ channelMsgType U e.1 ++ c!" " ++ msgType U v e.1)
    (p := fun e => [.dir (c!"define " ++ channelMsgType U e.1 ++ c!" " ++ msgType U v e.1)])
    fun e he => define_blk h (plain_line (ident_W (g.channels e (hm e he)).1).plain) (line_msg (g.channels e (hm e he)).2.1)
  have b4 := Blk.flatMap (sortEntries ctx.channelTypes) (f := fromFunction U v) fun e he =>
    from_blk h (g.channels e (hm e he)).1 (g.channels e (hm e he)).2.2.2.1 (g.channels e (hm e he)).2.2.2.2.2.choose_spec
  have b5 := Blk.flatMap (sortEntries ctx.channelTypes) (f := toFunction U v) fun e he =>
    to_blk h (g.channels e (hm e he)).2.1 (g.channels e (hm e he)).2.2.1 (g.channels e (hm e he)).2.2.2.2.2.choose_spec
  rw [flatMap_dir] at b1 b2 b3
  show L .idle (convertText U v ctx) = _
  have hnil : NL [] := .inl rfl
  unfold convertText convertDirs
  rw [List.map_append, List.map_append, List.map_append]
  generalize (sortEntries ctx.channelTypes).flatMap (fun e => c!"\n#define " ++ channelValueType U e.1 ++ c!" " ++ valueType v e.2) = x2 at b2 ⊢
  generalize (sortEntries ctx.channelTypes).flatMap (fun e => c!"\n#define " ++ channelMsgType U e.1 ++ c!" " ++ msgType U v e.1) = x3 at b3 ⊢
  generalize ((sortEntries ctx.channelTypes).map (fun e => c!"define " ++ channelValueType U e.1 ++ c!" " ++ valueType v e.2)).map Tok.dir = y2 at b2 ⊢
  generalize ((sortEntries ctx.channelTypes).map (fun e => c!"define " ++ channelMsgType U e.1 ++ c!" " ++ msgType U v e.1)).map Tok.dir = y3 at b3 ⊢
  generalize (ctx.includes.map includeDir).map Tok.dir = y1 at b1 ⊢
  have he := endif_run
  have hn : NL c!"\n\n#endif // CONVERT_H_DEFINED\n" := .cons _
  generalize c!"\n\n#endif // CONVERT_H_DEFINED\n" = z at he hn ⊢
  generalize [Tok.dir c!"endif // CONVERT_H_DEFINED"] = z' at he ⊢
  set_option maxRecDepth 20000 in simp only [List.append_assoc]
  rw [guard_run]
  have hz : [c!"ifndef CONVERT_H_DEFINED", c!"define CONVERT_H_DEFINED"].map Tok.dir =
    [.dir c!"ifndef CONVERT_H_DEFINED", .dir c!"define CONVERT_H_DEFINED"] := rfl
  rw [hz]
  generalize Tok.dir c!"ifndef CONVERT_H_DEFINED" = z1
  generalize Tok.dir c!"define CONVERT_H_DEFINED" = z2
  lexing [he, hn, Tree.convertItems, b1.run, b1.nl, b2.run, b2.nl, b3.run, b3.nl, b4.run, b4.nl, b5.run, b5.nl, hnil, NL.app, NL.cons,
    pItems_app, pItems_map, L_nil, lexEnd]

/-- The tokens of convert.h other than its directives -/
theorem lex_convert (h : Env U v) {ctx : CppConfig.Context} (g : GoodConvert U ctx) :
    lex (convertText U v ctx) = pItems (Tree.convertItems U v ctx) := by
  have h1 := scan_convert h g
  unfold lex
  rw [h1, ← List.append_assoc, List.filter_append]
  have h2 : ([Tok.dir c!"endif // CONVERT_H_DEFINED"]).filter (fun t => !isDir t) = [] := rfl
  rw [h2, List.append_nil, noDirs_filter]

end Lex

namespace Ok

open Parse CppText Templates Rtcg.Cpp Tmpl

variable {U : Unicode} {v : Variant}

theorem base_ok {ct : CppConfig.ChannelType} {t : RsType} (h : ct.base = some t) (b : Bool) : OkType { Tree.baseTy ct with const := b } := by
  unfold Tree.baseTy
  rw [h]
  exact typeE_ok t

theorem stmts_ok (v : Variant) (ct : CppConfig.ChannelType) : (∀ s ∈ Tree.fromStmts v ct, OkSt s) ∧ ∀ s ∈ Tree.toStmts v ct, OkSt s := by
  unfold Tree.fromStmts Tree.toStmts
  have hr : ∀ x, Ident x → OkSt (.retVal (Tree.nm x)) := fun x hx => nm_ok hx
  have i1 : Ident c!"msg" := by unfold Ident; decide
  have i2 : Ident c!"value" := by unfold Ident; decide
  by_cases hv : v = Variant.ros
  · simp only [if_pos hv]
    cases ct.base.any (·.isEnum) with
    | false =>
      refine ⟨?_, ?_⟩ <;> intro s hs <;> simp only [Bool.false_eq_true, if_false, List.mem_singleton] at hs <;> subst hs
      · simp (config := { decide := true }) [OkSt, OkE, OkS, OkA, OkQ, Tree.nm, lvl]
      · exact hr _ i2
    | true =>
      refine ⟨?_, ?_⟩ <;> intro s hs <;> simp only [if_true, List.mem_cons, List.not_mem_nil, or_false] at hs
      · subst hs
        simp (config := { decide := true }) [OkSt, OkE, OkS, OkA, OkQ, Tree.nm, Tree.call, Tree.argsOf, lvl]
      · rcases hs with rfl | rfl | rfl
        · exact ⟨okType_q (okQ_two (by unfold Ident; decide) (by unfold Ident; decide)) (by simp), by decide⟩
        · simp (config := { decide := true }) [OkSt, OkE, OkS, OkA, OkQ, Tree.nm, Tree.mcall, Tree.argsOf, lvl]
        · exact hr _ i1
  · simp only [if_neg hv, List.mem_singleton]
    exact ⟨by rintro _ rfl; exact hr _ i1, by rintro _ rfl; exact hr _ i2⟩

theorem convertItems_ok {ctx : CppConfig.Context} (g : GoodConvert U ctx) : ∀ i ∈ Tree.convertItems U v ctx, OkItem i := by
  intro i hi
  unfold Tree.convertItems at hi
  rw [List.mem_append, List.mem_map, List.mem_map] at hi
  rcases hi with ⟨e, he, rfl⟩ | ⟨e, he, rfl⟩
  · obtain ⟨g1, g2, g3, g4, g5, t, g6⟩ := g.channels e ((Exec.mem_sortEntries _ _).1 he)
    refine ⟨?_, okQ_one g4, ?_, ?_⟩
    · intro t' ht; cases ht; exact base_ok g6 (Tree.baseTy e.2).const
    · intro p hp
      rw [List.mem_singleton] at hp
      subst hp
      exact ⟨okType_q (okQ_one g1) (by simp), (by decide : isIdent c!"msg" = true)⟩
    · intro ss hss
      cases ho : e.2.hasOverride <;> rw [ho] at hss
      · exact some_ss (stmts_ok v e.2).1 ss hss
      · cases hss
  · obtain ⟨g1, g2, g3, g4, g5, t, g6⟩ := g.channels e ((Exec.mem_sortEntries _ _).1 he)
    refine ⟨?_, okQ_one g3, ?_, ?_⟩
    · intro t' ht; cases ht; exact okType_q (okQ_one g2) (by simp)
    · intro p hp
      rw [List.mem_singleton] at hp
      subst hp
      exact ⟨base_ok g6 true, (by decide : isIdent c!"value" = true)⟩
    · intro ss hss
      cases ho : e.2.hasOverride <;> rw [ho] at hss
      · exact some_ss (stmts_ok v e.2).2 ss hss
      · cases hss

/-- convert.h is read back as its syntax tree -/
theorem parse_convert (h : Lex.Env U v) {ctx : CppConfig.Context} (g : GoodConvert U ctx) :
    parse (lex (convertText U v ctx)) = some (Tree.convertItems U v ctx) := by
  rw [Lex.lex_convert h g, parse_print (convertItems_ok g)]

end Ok

end Cpp

end Spec

end Rtcg
