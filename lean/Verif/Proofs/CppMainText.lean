import Verif.Proofs.CppMain

/-
The tokens of main.cpp are those of its syntax tree.
-/

set_option linter.unusedSimpArgs false

namespace Rtcg

namespace Spec

namespace Cpp

namespace Lex

open Tree (stmtsOf argsOf)
open Parse (pSs pSt pItem pItems pE pA pParams pType)
open CppText Templates Rtcg.Cpp Tmpl

variable {U : Unicode} {v : Variant}

set_option maxHeartbeats 4000000 in
theorem mainFunction_blk (h : Env U v) {date name : Str} {m : Stm}
    {tc : TransitionContext} {ctx : CppConfig.Context} {first : Str} (g : GoodMain U date name m tc ctx first) :
    Blk (mainFunction U v name tc ctx) (pItem (Tree.mainItem U v name tc ctx)) := by
  have b1 := preInit_blk h g.name g.inSets
  have b2 := init_blk h g.outSets
  have b3 := animateBody_blk h g
  have h1 := ctorArgs_run (v := v) g.inSets
  have h2 := g.name
  generalize hx : Tree.mainBody U .animate tc ctx = y3 at b3
  rcases h.v with rfl | rfl
  · have hv : ¬ Variant.animate = Variant.ros := by decide
    exact ⟨NL.head rfl, fun rest hr => by
      lexing [hr, mainFunction, mainArgs, Tree.mainParams, Tree.mainItem, hx, b1.run, b1.nl, b2.run, b2.nl, b3.run, b3.nl, h1, h2, NL.app,
        NL.cons, pSs_app, mainBody, hv, Tree.SM, Tree.getStatus]⟩
  · have hi := h.info
    exact ⟨NL.head rfl, fun rest hr => by
      lexing [hr, mainFunction, mainArgs, Tree.mainParams, Tree.mainItem, b1.run, b1.nl, b2.run, b2.nl, h1, h2, NL.app,
        NL.cons, pSs_app, mainBody, Tree.mainBody, Tree.SM, Tree.getStatus, hi]⟩

/-- The directive that includes a file -/
def includeDir (i : CppConfig.Include) : Str :=
  c!"include " ++ (if i.isSystem then c!"<" else c!"\"") ++ i.src ++ (if i.isSystem then c!">" else c!"\"")

theorem includeLine_blk (h : Env U v) {i : CppConfig.Include} (hi : OneLine i.src) : Blk (includeLine i) [.dir (includeDir i)] := by
  cases hs : i.isSystem <;>
    block h with [includeLine, includeDir, hi, hs, Bool.false_eq_true]

/-- The directives that include what programs of a variant need -/
def systemDirs (v : Variant) : List Str :=
  if v = Variant.ros then [c!"include \"ros/ros.h\"", c!"include \"std_msgs/Bool.h\"", c!"include \"std_msgs/String.h\""]
  else [c!"include <iostream>"]

/-- The directives of main.cpp -/
def mainDirs (v : Variant) (ctx : CppConfig.Context) : List Str :=
  c!"include <string>" :: (systemDirs v ++ (ctx.includes.map includeDir ++
    [c!"include \"rtcg.h\"    // Helper definitions (compile with ../rtcg/rtcg.cpp)",
     c!"include \"convert.h\" // Channel type definitions and conversion functions"]))

set_option maxHeartbeats 4000000 in
/-- The tokens of main.cpp: its directives, then its syntax tree -/
theorem scan_main (h : Env U v) (ho : ∀ o : Outcome, o.val.toNat < 4 → Ident (enumField U o.string)) {date name : Str} {m : Stm}
    {tc : TransitionContext} {ctx : CppConfig.Context} {first : Str} (g : GoodMain U date name m tc ctx first) :
    scan (mainText U v date name m tc ctx first) = (mainDirs v ctx).map .dir ++ pItems (Tree.mainItems U v name m tc ctx first) := by
  have h1 := plain_line g.name
  have h2 := g.date
  have b1 := Blk.flatMap ctx.includes (f := includeLine) (p := fun i => [.dir (includeDir i)]) fun i hi => includeLine_blk h (g.includes i hi)
  have b2 := verdict_blk h fun t ht => ident_W (g.tests t ht)
  have b3 := stateMeta_blk h fun s hs => (g.states s hs).1
  have r4 := stmClass_run h (fun s hs => (g.states s hs).1) g.first g.inSets g.outSets
  have r5 := bodies_run h ho g
  have b6 := mainFunction_blk h g
  have hn : (ctx.includes.flatMap fun i => [Tok.dir (includeDir i)]) = (ctx.includes.map includeDir).map .dir := by
    induction ctx.includes with
    | nil => rfl
    | cons x l ih => rw [List.flatMap_cons, ih]; rfl
  rw [hn] at b1
  show L .idle (mainText U v date name m tc ctx first) = _
  have hnil : NL [] := .inl rfl
  generalize hx : (ctx.includes.map includeDir).map Tok.dir = x at b1
  rcases h.v with rfl | rfl
  · lexing [mainText, includes, systemIncludes, constants, Tree.constants, Tree.mainItems, h1, h2, b1.run, b1.nl, b2.run, b2.nl, b3.run, b3.nl, r4, r5, b6.run, b6.nl, hnil,
      NL.app, NL.cons, pItems_app, pItems_cons, pItems_nil, L_nil, lexEnd, mainDirs, systemDirs, List.map_append, hx]
  · lexing [mainText, includes, systemIncludes, constants, Tree.constants, Tree.mainItems, h1, h2, b1.run, b1.nl, b2.run, b2.nl, b3.run, b3.nl, r4, r5, b6.run, b6.nl, hnil,
      NL.app, NL.cons, pItems_app, pItems_cons, pItems_nil, L_nil, lexEnd, mainDirs, systemDirs, List.map_append, hx]

theorem noDirs_filter (ds : List Str) (is : List Item) : (ds.map Tok.dir ++ pItems is).filter (fun t => !isDir t) = pItems is := by
  rw [List.filter_append]
  have h1 : (ds.map Tok.dir).filter (fun t => !isDir t) = [] := by
    rw [List.filter_eq_nil_iff]
    intro t ht
    obtain ⟨d, _, rfl⟩ := List.mem_map.1 ht
    simp [isDir]
  have h2 : (pItems is).filter (fun t => !isDir t) = pItems is := by
    rw [List.filter_eq_self]
    intro t ht
    rw [Parse.pItems_noDir is t ht]
    rfl
  rw [h1, h2, List.nil_append]

theorem lex_of_scan {s : Str} {ds : List Str} {is : List Item} (h : scan s = ds.map .dir ++ pItems is) : lex s = pItems is := by
  unfold lex
  rw [h, noDirs_filter]

/-- The tokens of main.cpp other than its directives -/
theorem lex_main (h : Env U v) (ho : ∀ o : Outcome, o.val.toNat < 4 → Ident (enumField U o.string)) {date name : Str} {m : Stm}
    {tc : TransitionContext} {ctx : CppConfig.Context} {first : Str} (g : GoodMain U date name m tc ctx first) :
    lex (mainText U v date name m tc ctx first) = pItems (Tree.mainItems U v name m tc ctx first) := lex_of_scan (scan_main h ho g)

end Lex

end Cpp

end Spec

end Rtcg
