/- Prints lean/Verif/Proofs/TemplateTrees.lean: run with `lake env lean ../tools/trees.txt` in /verif/lean. -/
import Verif.Model.TemplateData
open Rtcg Rtcg.Tmpl
partial def lit (s : Str) : String :=
  if s.length ≤ 300 then "c!" ++ (String.ofList s).quote
  else "(c!" ++ (String.ofList (s.take 300)).quote ++ " ++ " ++ lit (s.drop 300) ++ ")"
partial def pt : Term → String
  | .dot => ".dot" | .var x => s!"(.var {lit x})" | .str x => s!"(.str {lit x})" | .num n => s!"(.num {n})"
  | .fn f => s!"(.fn {lit f})" | .fld t f => s!"(.fld {pt t} {lit f})" | .ap f x => s!"(.ap {pt f} {pt x})"
partial def pn (ind : String) : Tmpl.Node → String
  | .nil => ".nil"
  | .text s r => s!"(.text {lit s}\n{ind}{pn ind r})"
  | .action t r => s!"(.action {pt t}\n{ind}{pn ind r})"
  | .decl x t r => s!"(.decl {lit x} {pt t}\n{ind}{pn ind r})"
  | .ite t a b r => s!"(.ite {pt t}\n{ind}  {pn (ind ++ "  ") a}\n{ind}  {pn (ind ++ "  ") b}\n{ind}{pn ind r})"
  | .range v t a b r => s!"(.range {v.map lit} {pt t}\n{ind}  {pn (ind ++ "  ") a}\n{ind}  {pn (ind ++ "  ") b}\n{ind}{pn ind r})"
  | .with_ t a b r => s!"(.with_ {pt t}\n{ind}  {pn (ind ++ "  ") a}\n{ind}  {pn (ind ++ "  ") b}\n{ind}{pn ind r})"
  | .template s t r => s!"(.template {lit s} {match t with | none => "none" | some t => "(some "++pt t++")"}\n{ind}{pn ind r})"
/-- an identifier from a template name -/
def ident (pre : String) (s : Str) : String :=
  let s := (String.ofList s).replace ".tmpl" ""
  let ws := (s.split (fun c => c == '_' || c == '.')).toList.map (·.toString)
  pre ++ String.join (ws.map (fun w => w.capitalize))
def sets : List (String × Option (GoMap Str Tmpl.Node)) :=
  [("animate", mainSet .animate), ("ros", mainSet .ros), ("animateConv", convertSet .animate), ("rosConv", convertSet .ros),
   ("make", makefileSet), ("cmake", cmakeSet)]
#eval show IO Unit from do
  IO.println "import Verif.Model.TemplateData

/-
The parsed templates of /repo: what `Tmpl.parseFiles` makes of the files in Model/TemplateFiles.lean, which is
proved at the end.  Written by tools/trees.txt.
-/

namespace Rtcg

namespace Tmpl

namespace Trees
"
  let mut seen : List (Tmpl.Node × String) := []
  for (pre, set) in sets do
    match set with
    | none => throw (IO.userError "no parse")
    | some set =>
      let mut names : List (Str × String) := []
      for (n, t) in set do
        match seen.find? (fun p => p.1 = t && p.2.endsWith (ident "" n)) with
        | some p => names := names ++ [(n, p.2)]
        | none =>
          let isBase := pre == "animate" && (match mainSet .ros with | some s => GoMap.get? s n = some t | none => false)
          let isConv := pre == "animateConv" && (match convertSet .ros with | some s => GoMap.get? s n = some t | none => false)
          let id := ident (if isBase then "base" else if isConv then "conv" else pre) n
          IO.println s!"/-- The template {String.ofList n} -/\ndef {id} : Node :=\n  {pn "  " t}\n"
          seen := seen ++ [(t, id)]
          names := names ++ [(n, id)]
      IO.println s!"/-- The template set {pre} -/\ndef {pre}Set : GoMap Str Node :=\n  [{", ".intercalate (names.map fun p => s!"({lit p.1}, {p.2})\n  ")}]\n"
  IO.println "theorem animateSet_eq : mainSet .animate = some animateSet := by decide +kernel

theorem rosSet_eq : mainSet .ros = some rosSet := by decide +kernel

theorem animateConvSet_eq : convertSet .animate = some animateConvSet := by decide +kernel

theorem rosConvSet_eq : convertSet .ros = some rosConvSet := by decide +kernel

theorem makeSet_eq : makefileSet = some makeSet := by decide +kernel

theorem cmakeSet_eq : Tmpl.cmakeSet = some Trees.cmakeSet := by decide +kernel

end Trees

end Tmpl

end Rtcg"
