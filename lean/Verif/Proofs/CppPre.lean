import Verif.Proofs.CppPreH
import Verif.Proofs.CppConvertText

/-
What the preprocessor makes of generated files.
-/

namespace Rtcg

namespace Spec

namespace Cpp

namespace Pre

open Parse Tree Lex
open CppText Templates Rtcg.Cpp Tmpl

variable {inc : Pre → Str → Option (Pre × List Tok)}

/-! ### one after the other -/

theorem preAll_append (p : Pre) (a b : List Tok) :
    preAll inc p (a ++ b) = (preAll inc p a).bind fun r => (preAll inc r.1 b).map fun s => (s.1, r.2 ++ s.2) := by
  induction a generalizing p with
  | nil => simp only [List.nil_append, preAll, Option.bind_some]; cases preAll inc p b <;> rfl
  | cons t a ih =>
    rw [List.cons_append, preAll, preAll]
    cases preOne inc p t with
    | none => rfl
    | some r =>
      simp only [Option.bind_some, ih]
      cases preAll inc r.1 a with
      | none => rfl
      | some s =>
        simp only [Option.bind_some, Option.map_some]
        cases preAll inc s.1 b with
        | none => rfl
        | some u => simp

theorem preAll_trans {p q r : Pre} {a b x y : List Tok} (h1 : preAll inc p a = some (q, x)) (h2 : preAll inc q b = some (r, y)) :
    preAll inc p (a ++ b) = some (r, x ++ y) := by
  rw [preAll_append, h1]
  simp only [Option.bind_some, h2, Option.map_some]

theorem preAll_one {p q : Pre} {t : Tok} {x : List Tok} (h : preOne inc p t = some (q, x)) : preAll inc p [t] = some (q, x) := by
  simp only [preAll, h, Option.bind_some, Option.map_some, List.append_nil]

theorem preAll_dir {p q : Pre} {d : Str} {x : List Tok} (h : directive inc p d = some (q, x)) : preAll inc p [.dir d] = some (q, x) :=
  preAll_one (t := .dir d) h

theorem preAll_keep {p : Pre} (hp : p.keeps = true) {ts : List Tok} (h : ∀ t ∈ ts, isDir t = false) :
    preAll inc p ts = some (p, ts.flatMap (expand p.macros)) := by
  induction ts with
  | nil => rfl
  | cons t ts ih =>
    have h1 : preOne inc p t = some (p, expand p.macros t) := by
      have := h t (by simp)
      cases t with
      | dir d => cases this
      | _ => simp only [preOne, hp, if_true]
    rw [preAll, h1]
    simp only [Option.bind_some, ih (fun t ht => h t (by simp [ht])), Option.map_some, List.flatMap_cons]

theorem preAll_quiet {p : Pre} {ds : List Str} (h : ∀ d ∈ ds, directive inc p d = some (p, [])) :
    preAll inc p (ds.map .dir) = some (p, []) := by
  induction ds with
  | nil => rfl
  | cons d ds ih =>
    rw [List.map_cons, preAll, preOne, h d (by simp)]
    simp only [Option.bind_some, ih (fun d hd => h d (by simp [hd])), Option.map_some, List.append_nil]

theorem preAll_defines {α : Type} {f : α → Str} {g : α → Str × List Tok} {k : List Bool} (l : List α)
    (h : ∀ a ∈ l, ∀ M, directive inc ⟨M, k⟩ (f a) = some (⟨g a :: M, k⟩, [])) (M : Macros) :
    preAll inc ⟨M, k⟩ ((l.map f).map .dir) = some (⟨(l.map g).reverse ++ M, k⟩, []) := by
  induction l generalizing M with
  | nil => rfl
  | cons a l ih =>
    rw [List.map_cons, List.map_cons, preAll, preOne, h a (by simp)]
    simp only [Option.bind_some, ih (fun d hd => h d (by simp [hd])), Option.map_some, List.map_cons, List.reverse_cons, List.append_assoc,
      List.cons_append, List.nil_append]

/-! ### directives -/

theorem lex_define {x : Str} (hx : W x) (text : Str) :
    lex (c!"define " ++ x ++ c!" " ++ text) = .word c!"define" :: .word x :: lex text := by
  have : scan (c!"define " ++ x ++ c!" " ++ text) = .word c!"define" :: .word x :: scan text := by
    show L .idle _ = .word c!"define" :: .word x :: L .idle text
    lexing [hx]
  unfold lex
  rw [this]
  rfl

theorem define_dir {p : Pre} (hp : p.keeps = true) {x : Str} (hx : W x) (text : Str) :
    directive inc p (c!"define " ++ x ++ c!" " ++ text) = some (⟨(x, lex text) :: p.macros, p.kept⟩, []) := by
  unfold directive
  rw [lex_define hx]
  simp only [hp]
  rfl

theorem lex_local {src : Str} (h : Plain src) (rest : Str) :
    lex (c!"include \"" ++ (src ++ '"' :: rest)) = .word c!"include" :: .str src :: lex rest := by
  have : scan (c!"include \"" ++ (src ++ '"' :: rest)) = .word c!"include" :: .str src :: scan rest := by
    show L .idle _ = .word c!"include" :: .str src :: L .idle rest
    lexing [L_str_plain [] _ h]
  unfold lex
  rw [this]
  rfl

theorem local_dir {p : Pre} (hp : p.keeps = true) {src : Str} (h : Plain src) (rest : Str) :
    directive inc p (c!"include \"" ++ (src ++ '"' :: rest)) = inc p src := by
  unfold directive
  rw [lex_local h]
  simp only [hp]
  rfl

theorem L_op_first (c : Char) (hc : c ≠ '/') (rest : Str) : ∃ o ts, L (.op c) rest = .op o :: ts := by
  cases rest with
  | nil => exact ⟨_, _, rfl⟩
  | cons d rest =>
    rw [L_cons]
    simp only [lexChar, hc, decide_false, Bool.false_and, Bool.false_eq_true, if_false]
    split
    · exact ⟨_, _, rfl⟩
    · exact ⟨_, _, rfl⟩

theorem lex_system (rest : Str) : ∃ o ts, lex (c!"include <" ++ rest) = .word c!"include" :: .op o :: ts := by
  obtain ⟨o, ts, h⟩ := L_op_first '<' (by decide) rest
  have : scan (c!"include <" ++ rest) = .word c!"include" :: .op o :: ts := by
    show L .idle _ = _
    rw [← h]
    lexing [L_nil]
  unfold lex
  rw [this]
  exact ⟨o, _, rfl⟩

theorem system_dir {p : Pre} (hp : p.keeps = true) (rest : Str) : directive inc p (c!"include <" ++ rest) = some (p, []) := by
  obtain ⟨o, ts, h⟩ := lex_system rest
  unfold directive
  rw [h]
  simp only [hp]
  rfl

theorem include_dir {p : Pre} (hp : p.keeps = true) {i : CppConfig.Include}
    (h : i.isSystem = false → Plain i.src ∧ inc p i.src = some (p, [])) : directive inc p (includeDir i) = some (p, []) := by
  cases hs : i.isSystem with
  | true =>
    have : includeDir i = c!"include <" ++ (i.src ++ c!">") := by
      unfold includeDir
      rw [hs]
      simp only [if_true, List.append_assoc]
      rfl
    rw [this, system_dir hp]
  | false =>
    have : includeDir i = c!"include \"" ++ (i.src ++ '"' :: []) := by
      unfold includeDir
      rw [hs]
      simp only [Bool.false_eq_true, if_false, List.append_assoc]
      rfl
    rw [this, local_dir hp (h hs).1, (h hs).2]

/-! ### words that are not defined -/

theorem find_none {M : Macros} {w : Str} : M.find w = none ↔ ∀ m ∈ M, m.1 ≠ w := by
  unfold Macros.find
  rw [Option.map_eq_none_iff, List.find?_eq_none]
  simp

theorem find_mem {M : Macros} (hM : (M.map (·.1)).Nodup) {m : Str × List Tok} (h : m ∈ M) : M.find m.1 = some m.2 := by
  induction M with
  | nil => cases h
  | cons a M ih =>
    rw [List.map_cons, List.nodup_cons] at hM
    unfold Macros.find
    rcases List.mem_cons.1 h with rfl | h
    · simp
    · have hne : a.1 ≠ m.1 := fun he => hM.1 (List.mem_map.2 ⟨m, h, he.symm⟩)
      rw [List.find?_cons_of_neg (by simpa using hne)]
      exact ih hM.2 h

theorem find_without {M : Macros} {w x : Str} (h : x ≠ w) : (M.without w).find x = M.find x := by
  unfold Macros.find Macros.without
  rw [List.find?_filter]
  congr 2
  funext m
  by_cases hm : m.1 = x
  · simp [hm, h]
  · simp [hm]

theorem without_none {M : Macros} {w x : Str} (h : M.find x = none) : (M.without w).find x = none := by
  rw [find_none] at h ⊢
  intro m hm
  exact h m (List.mem_filter.1 hm).1

theorem expandTok_self (n : Nat) (M : Macros) {t : Tok} (h : ∀ w, t = .word w → M.find w = none) : expandTok n M t = [t] := by
  cases n with
  | zero => cases t <;> rfl
  | succ n =>
    cases t with
    | word w => rw [expandTok, h w rfl]
    | _ => rfl

theorem expandAll_self (n : Nat) (M : Macros) {ts : List Tok} (h : ∀ w, .word w ∈ ts → M.find w = none) :
    ts.flatMap (expandTok n M) = ts := by
  induction ts with
  | nil => rfl
  | cons t ts ih =>
    rw [List.flatMap_cons, expandTok_self n M (fun w hw => h w (by simp [hw])), ih (fun w hw => h w (by simp [hw]))]
    rfl

theorem expandTok_word {n : Nat} {M : Macros} {w : Str} {body : List Tok} (h : M.find w = some body) :
    expandTok (n + 1) M (.word w) = body.flatMap (expandTok n (M.without w)) := by
  rw [expandTok, h]

/-! ### convert.h -/

variable {U : Unicode} {v : Variant}

def valDef (U : Unicode) (v : Variant) (e : Str × CppConfig.ChannelType) : Str × List Tok := (channelValueType U e.1, lex (valueType v e.2))

def msgDef (U : Unicode) (v : Variant) (e : Str × CppConfig.ChannelType) : Str × List Tok := (channelMsgType U e.1, lex (msgType U v e.1))

/-- What convert.h defines, and what was defined before -/
def convertMacros (U : Unicode) (v : Variant) (ctx : CppConfig.Context) (M : Macros) : Macros :=
  ((sortEntries ctx.channelTypes).map (msgDef U v)).reverse ++
    (((sortEntries ctx.channelTypes).map (valDef U v)).reverse ++ (c!"CONVERT_H_DEFINED", []) :: M)

theorem lex_ifndef : lex c!"ifndef CONVERT_H_DEFINED" = [.word c!"ifndef", .word c!"CONVERT_H_DEFINED"] := by decide +kernel

theorem lex_defineGuard : lex c!"define CONVERT_H_DEFINED" = [.word c!"define", .word c!"CONVERT_H_DEFINED"] := by decide +kernel

theorem lex_endif : lex c!"endif // CONVERT_H_DEFINED" = [.word c!"endif"] := by decide +kernel

theorem ifndef_dir (p : Pre) : directive inc p c!"ifndef CONVERT_H_DEFINED" =
    some (⟨p.macros, (p.macros.find c!"CONVERT_H_DEFINED").isNone :: p.kept⟩, []) := by
  unfold directive
  rw [lex_ifndef]
  rfl

theorem guard_dir {p : Pre} (hp : p.keeps = true) : directive inc p c!"define CONVERT_H_DEFINED" =
    some (⟨(c!"CONVERT_H_DEFINED", []) :: p.macros, p.kept⟩, []) := by
  unfold directive
  rw [lex_defineGuard]
  simp only [hp]
  rfl

theorem endif_dir (M : Macros) (b : Bool) (k : List Bool) : directive inc ⟨M, b :: k⟩ c!"endif // CONVERT_H_DEFINED" = some (⟨M, k⟩, []) := by
  unfold directive
  rw [lex_endif]
  rfl

set_option maxHeartbeats 2000000 in
/-- convert.h, included for the first time -/
theorem pre_convert (h : Env U v) {ctx : CppConfig.Context} (g : GoodConvert U ctx) {M : Macros} {k : List Bool}
    (hM : M.find c!"CONVERT_H_DEFINED" = none) (hk : k.all id = true)
    (hi : ∀ i ∈ ctx.includes, i.isSystem = false → Plain i.src ∧ ∀ p, inc p i.src = some (p, [])) :
    preAll inc ⟨M, k⟩ (scan (convertText U v ctx)) = some (⟨convertMacros U v ctx M, k⟩,
      (pItems (convertItems U v ctx)).flatMap (expand (convertMacros U v ctx M))) := by
  rw [scan_convert h g]
  unfold convertDirs
  rw [List.map_append, List.map_append, List.map_append]
  have hk' : ∀ M, (⟨M, true :: k⟩ : Pre).keeps = true := by
    intro M
    unfold Pre.keeps
    simp only [List.all_cons, hk]
    rfl
  have hmem : ∀ e ∈ sortEntries ctx.channelTypes, e ∈ ctx.channelTypes := fun e he => (Exec.mem_sortEntries _ _).1 he
  have e1 : preAll inc ⟨M, k⟩ ([c!"ifndef CONVERT_H_DEFINED", c!"define CONVERT_H_DEFINED"].map .dir) =
      some (⟨(c!"CONVERT_H_DEFINED", []) :: M, true :: k⟩, []) := by
    simp (maxSteps := 1000000) only [List.map_cons, List.map_nil, preAll, preOne, ifndef_dir, hM, Option.isNone_none, Option.bind_some, guard_dir (hk' M),
      Option.map_some, List.append_nil]
  have e2 : preAll inc ⟨(c!"CONVERT_H_DEFINED", []) :: M, true :: k⟩ ((ctx.includes.map includeDir).map .dir) =
      some (⟨(c!"CONVERT_H_DEFINED", []) :: M, true :: k⟩, []) := by
    refine preAll_quiet ?_
    intro d hd
    obtain ⟨i, him, rfl⟩ := List.mem_map.1 hd
    exact include_dir (hk' _) fun hs => ⟨(hi i him hs).1, (hi i him hs).2 _⟩
  have e3 := preAll_defines (inc := inc) (f := fun e => c!"define " ++ channelValueType U e.1 ++ c!" " ++ valueType v e.2) (g := valDef U v)
    (k := true :: k) (sortEntries ctx.channelTypes)
    (fun e he N => define_dir (hk' N) (ident_W (g.channels e (hmem e he)).2.1) _) ((c!"CONVERT_H_DEFINED", []) :: M)
  have e4 := preAll_defines (inc := inc) (f := fun e => c!"define " ++ channelMsgType U e.1 ++ c!" " ++ msgType U v e.1) (g := msgDef U v)
    (k := true :: k) (sortEntries ctx.channelTypes)
    (fun e he N => define_dir (hk' N) (ident_W (g.channels e (hmem e he)).1) _)
    (((sortEntries ctx.channelTypes).map (valDef U v)).reverse ++ (c!"CONVERT_H_DEFINED", []) :: M)
  have e5 := preAll_keep (inc := inc) (hk' (convertMacros U v ctx M)) (ts := pItems (convertItems U v ctx)) (fun t ht => by
    rw [Parse.pItems_noDir _ t ht])
  have e6 : preAll inc ⟨convertMacros U v ctx M, true :: k⟩ [.dir c!"endif // CONVERT_H_DEFINED"] = some (⟨convertMacros U v ctx M, k⟩, []) :=
    preAll_dir (endif_dir _ _ _)
  have e4' : preAll inc ⟨((sortEntries ctx.channelTypes).map (valDef U v)).reverse ++ (c!"CONVERT_H_DEFINED", []) :: M, true :: k⟩
      (((sortEntries ctx.channelTypes).map (fun e => c!"define " ++ channelMsgType U e.1 ++ c!" " ++ msgType U v e.1)).map .dir) =
      some (⟨convertMacros U v ctx M, true :: k⟩, []) := e4
  have := preAll_trans (preAll_trans (preAll_trans (preAll_trans e1 e2) e3) e4') (preAll_trans e5 e6)
  simp only [List.nil_append, List.append_nil] at this
  exact this

theorem skip_dir {p : Pre} (hp : p.keeps = false) {d w : Str} {rest : List Tok} (h : lex d = .word w :: rest) (h1 : w ≠ c!"ifndef")
    (h2 : w ≠ c!"endif") : directive inc p d = some (p, []) := by
  unfold directive
  rw [h]
  simp only [h1, h2, if_false, hp]
  rfl

theorem skip_include {p : Pre} (hp : p.keeps = false) {i : CppConfig.Include} (h : i.isSystem = false → Plain i.src) :
    directive inc p (includeDir i) = some (p, []) := by
  cases hs : i.isSystem with
  | true =>
    have : includeDir i = c!"include <" ++ (i.src ++ c!">") := by
      unfold includeDir
      rw [hs]
      simp only [if_true, List.append_assoc]
      rfl
    rw [this]
    obtain ⟨o, ts, h⟩ := lex_system (i.src ++ c!">")
    exact skip_dir hp h (by decide) (by decide)
  | false =>
    have : includeDir i = c!"include \"" ++ (i.src ++ '"' :: []) := by
      unfold includeDir
      rw [hs]
      simp only [Bool.false_eq_true, if_false, List.append_assoc]
      rfl
    rw [this]
    exact skip_dir hp (lex_local (h hs) []) (by decide) (by decide)

theorem preAll_skip {p : Pre} (hp : p.keeps = false) {ts : List Tok} (h : ∀ t ∈ ts, isDir t = false) : preAll inc p ts = some (p, []) := by
  induction ts with
  | nil => rfl
  | cons t ts ih =>
    have h1 : preOne inc p t = some (p, []) := by
      have := h t (by simp)
      cases t with
      | dir d => cases this
      | _ => simp only [preOne, hp, Bool.false_eq_true, if_false]
    rw [preAll, h1]
    simp only [Option.bind_some, ih (fun t ht => h t (by simp [ht])), Option.map_some, List.append_nil]

/-- convert.h, included again -/
theorem pre_convert_again (h : Env U v) {ctx : CppConfig.Context} (g : GoodConvert U ctx) {M : Macros} {k : List Bool}
    (hM : M.find c!"CONVERT_H_DEFINED" ≠ none) (hi : ∀ i ∈ ctx.includes, i.isSystem = false → Plain i.src) :
    preAll inc ⟨M, k⟩ (scan (convertText U v ctx)) = some (⟨M, k⟩, []) := by
  rw [scan_convert h g]
  unfold convertDirs
  rw [List.map_append, List.map_append, List.map_append]
  have hk : (⟨M, false :: k⟩ : Pre).keeps = false := rfl
  have hmem : ∀ e ∈ sortEntries ctx.channelTypes, e ∈ ctx.channelTypes := fun e he => (Exec.mem_sortEntries _ _).1 he
  have hn : (M.find c!"CONVERT_H_DEFINED").isNone = false := by
    cases hf : M.find c!"CONVERT_H_DEFINED" with
    | none => exact absurd hf hM
    | some _ => rfl
  have e1 : preAll inc ⟨M, k⟩ ([c!"ifndef CONVERT_H_DEFINED", c!"define CONVERT_H_DEFINED"].map .dir) = some (⟨M, false :: k⟩, []) := by
    simp only [List.map_cons, List.map_nil, preAll, preOne, ifndef_dir, hn, Option.bind_some,
      skip_dir hk lex_defineGuard (by decide) (by decide), Option.map_some, List.append_nil]
  have e2 : preAll inc ⟨M, false :: k⟩ ((ctx.includes.map includeDir).map .dir) = some (⟨M, false :: k⟩, []) := by
    refine preAll_quiet ?_
    intro d hd
    obtain ⟨i, him, rfl⟩ := List.mem_map.1 hd
    exact skip_include hk (hi i him)
  have e3 : preAll inc ⟨M, false :: k⟩ (((sortEntries ctx.channelTypes).map
      (fun e => c!"define " ++ channelValueType U e.1 ++ c!" " ++ valueType v e.2)).map .dir) = some (⟨M, false :: k⟩, []) := by
    refine preAll_quiet ?_
    intro d hd
    obtain ⟨e, he, rfl⟩ := List.mem_map.1 hd
    exact skip_dir hk (lex_define (ident_W (g.channels e (hmem e he)).2.1) _) (by decide) (by decide)
  have e4 : preAll inc ⟨M, false :: k⟩ (((sortEntries ctx.channelTypes).map
      (fun e => c!"define " ++ channelMsgType U e.1 ++ c!" " ++ msgType U v e.1)).map .dir) = some (⟨M, false :: k⟩, []) := by
    refine preAll_quiet ?_
    intro d hd
    obtain ⟨e, he, rfl⟩ := List.mem_map.1 hd
    exact skip_dir hk (lex_define (ident_W (g.channels e (hmem e he)).1) _) (by decide) (by decide)
  have e5 := preAll_skip (inc := inc) hk (ts := pItems (convertItems U v ctx)) (fun t ht => by
    rw [Parse.pItems_noDir _ t ht])
  have e6 : preAll inc ⟨M, false :: k⟩ [.dir c!"endif // CONVERT_H_DEFINED"] = some (⟨M, k⟩, []) := preAll_dir (endif_dir _ _ _)
  exact preAll_trans (preAll_trans (preAll_trans (preAll_trans e1 e2) e3) e4) (preAll_trans e5 e6)

/-! ### rtcg.h -/

theorem scan_rtcgH : scan TemplateFiles.rtcgH = [.dir c!"ifndef RTCG_H_DEFINED", .dir c!"define RTCG_H_DEFINED"] ++ (lex TemplateFiles.rtcgH ++
    [.dir c!"endif // RTCG_H_DEFINED"]) := by decide +kernel

theorem rtcgH_words : ∀ t ∈ lex TemplateFiles.rtcgH, isDir t = false ∧ t ≠ .word c!"RTCG_H_DEFINED" := by decide +kernel

theorem pre_rtcgH (inc : Pre → Str → Option (Pre × List Tok)) : preAll inc ⟨[], []⟩ (scan TemplateFiles.rtcgH) =
    some (⟨[(c!"RTCG_H_DEFINED", [])], []⟩, lex TemplateFiles.rtcgH) := by
  rw [scan_rtcgH]
  have e1 : preAll inc ⟨[], []⟩ [.dir c!"ifndef RTCG_H_DEFINED", .dir c!"define RTCG_H_DEFINED"] =
      some (⟨[(c!"RTCG_H_DEFINED", [])], [true]⟩, []) := by rfl
  have e2 := preAll_keep (inc := inc) (p := ⟨[(c!"RTCG_H_DEFINED", [])], [true]⟩) rfl (ts := lex TemplateFiles.rtcgH) (fun t ht => (rtcgH_words t ht).1)
  have e3 : preAll inc ⟨[(c!"RTCG_H_DEFINED", [])], [true]⟩ [.dir c!"endif // RTCG_H_DEFINED"] =
      some (⟨[(c!"RTCG_H_DEFINED", [])], []⟩, []) := by rfl
  have := preAll_trans e1 (preAll_trans e2 e3)
  rw [this, List.nil_append, List.append_nil]
  have : (lex TemplateFiles.rtcgH).flatMap (expand [(c!"RTCG_H_DEFINED", [])]) = lex TemplateFiles.rtcgH := by
    refine expandAll_self _ _ ?_
    intro w hw
    rw [find_none]
    intro m hm
    rw [List.mem_singleton] at hm
    subst hm
    intro he
    exact (rtcgH_words _ hw).2 (by rw [← he])
  rw [this]

/-! ### the files -/

/-- What an included file gives -/
def incl (files : Str → Option Str) (n : Nat) (p : Pre) (f : Str) : Option (Pre × List Tok) :=
  match files f with
  | some text => preFile files n p text
  | none => some (p, [])

theorem preFile_succ (files : Str → Option Str) (n : Nat) (p : Pre) (text : Str) :
    preFile files (n + 1) p text = preAll (incl files n) p (scan text) := rfl

theorem incl_some {files : Str → Option Str} {n : Nat} {p : Pre} {f text : Str} (h : files f = some text) :
    incl files n p f = preFile files n p text := by
  unfold incl
  rw [h]

theorem incl_none {files : Str → Option Str} {n : Nat} {p : Pre} {f : Str} (h : files f = none) :
    incl files n p f = some (p, []) := by
  unfold incl
  rw [h]

/-- All that is defined at the end -/
def allMacros (U : Unicode) (v : Variant) (ctx : CppConfig.Context) : Macros := convertMacros U v ctx [(c!"RTCG_H_DEFINED", [])]

/-- main.cpp after preprocessing -/
theorem preprocess_main (h : Env U v) (ho : ∀ o : Outcome, o.val.toNat < 4 → Ident (enumField U o.string)) {date name : Str} {m : Stm}
    {tc : TransitionContext} {ctx : CppConfig.Context} {first : Str} (g : GoodMain U date name m tc ctx first) (gc : GoodConvert U ctx)
    {files : Str → Option Str} (hf : FilesFor files (convertText U v ctx) ctx) :
    preprocess files (mainText U v date name m tc ctx first) = some (allMacros U v ctx, lex TemplateFiles.rtcgH ++
      ((pItems (convertItems U v ctx)).flatMap (expand (allMacros U v ctx)) ++
       (pItems (mainItems U v name m tc ctx first)).flatMap (expand (allMacros U v ctx)))) := by
  have hinc : ∀ n, ∀ i ∈ ctx.includes, i.isSystem = false → Plain i.src ∧ ∀ p, incl files n p i.src = some (p, []) :=
    fun n i hi hs => ⟨(hf.includes i hi hs).1, fun p => incl_none (hf.includes i hi hs).2⟩
  have hp : (⟨[], []⟩ : Pre).keeps = true := rfl
  have e1 : preAll (incl files 199) ⟨[], []⟩ ([c!"include <string>"].map .dir) = some (⟨[], []⟩, []) := preAll_dir (system_dir hp c!"string>")
  have e2 : preAll (incl files 199) ⟨[], []⟩ ((systemDirs v).map .dir) = some (⟨[], []⟩, []) := by
    refine preAll_quiet ?_
    intro d hd
    unfold systemDirs at hd
    split at hd
    · simp only [List.mem_cons, List.not_mem_nil, or_false] at hd
      rcases hd with rfl | rfl | rfl
      · exact (local_dir hp (src := c!"ros/ros.h") (by unfold Plain; decide) []).trans (incl_none (hf.ros _ (by simp)))
      · exact (local_dir hp (src := c!"std_msgs/Bool.h") (by unfold Plain; decide) []).trans (incl_none (hf.ros _ (by simp)))
      · exact (local_dir hp (src := c!"std_msgs/String.h") (by unfold Plain; decide) []).trans (incl_none (hf.ros _ (by simp)))
    · simp only [List.mem_cons, List.not_mem_nil, or_false] at hd
      subst hd
      exact system_dir hp c!"iostream>"
  have e3 : preAll (incl files 199) ⟨[], []⟩ ((ctx.includes.map includeDir).map .dir) = some (⟨[], []⟩, []) := by
    refine preAll_quiet ?_
    intro d hd
    obtain ⟨i, him, rfl⟩ := List.mem_map.1 hd
    exact include_dir hp fun hs => ⟨(hinc 199 i him hs).1, (hinc 199 i him hs).2 _⟩
  have e4 : preAll (incl files 199) ⟨[], []⟩ [.dir c!"include \"rtcg.h\"    // Helper definitions (compile with ../rtcg/rtcg.cpp)"] =
      some (⟨[(c!"RTCG_H_DEFINED", [])], []⟩, lex TemplateFiles.rtcgH) := by
    refine preAll_dir ?_
    refine (local_dir hp (src := c!"rtcg.h") (by unfold Plain; decide) c!"    // Helper definitions (compile with ../rtcg/rtcg.cpp)").trans ?_
    rw [incl_some hf.rtcg, preFile_succ, pre_rtcgH]
  have e5 : preAll (incl files 199) ⟨[(c!"RTCG_H_DEFINED", [])], []⟩
      [.dir c!"include \"convert.h\" // Channel type definitions and conversion functions"] =
      some (⟨allMacros U v ctx, []⟩, (pItems (convertItems U v ctx)).flatMap (expand (allMacros U v ctx))) := by
    refine preAll_dir ?_
    refine (local_dir rfl (src := c!"convert.h") (by unfold Plain; decide) c!" // Channel type definitions and conversion functions").trans ?_
    rw [incl_some hf.convert, preFile_succ]
    exact pre_convert h gc (by decide) rfl (hinc 198)
  have e6 := preAll_keep (inc := incl files 199) (p := ⟨allMacros U v ctx, []⟩) rfl (ts := pItems (mainItems U v name m tc ctx first))
    (fun t ht => by rw [Parse.pItems_noDir _ t ht])
  have key : preFile files includeLimit ⟨[], []⟩ (mainText U v date name m tc ctx first) = some (⟨allMacros U v ctx, []⟩,
      lex TemplateFiles.rtcgH ++ ((pItems (convertItems U v ctx)).flatMap (expand (allMacros U v ctx)) ++
       (pItems (mainItems U v name m tc ctx first)).flatMap (expand (allMacros U v ctx)))) := by
    rw [show includeLimit = 199 + 1 from rfl, preFile_succ, scan_main h ho g]
    have hd : (mainDirs v ctx).map Tok.dir = [c!"include <string>"].map .dir ++ ((systemDirs v).map .dir ++ ((ctx.includes.map includeDir).map .dir ++
      ([.dir c!"include \"rtcg.h\"    // Helper definitions (compile with ../rtcg/rtcg.cpp)"] ++
       [.dir c!"include \"convert.h\" // Channel type definitions and conversion functions"]))) := by
      unfold mainDirs
      rw [List.map_cons, List.map_append, List.map_append]
      rfl
    rw [hd, preAll_trans (preAll_trans e1 (preAll_trans e2 (preAll_trans e3 (preAll_trans e4 e5)))) e6]
    simp only [List.nil_append, List.append_assoc]
  unfold preprocess
  rw [key]
  rfl

end Pre

end Cpp

end Spec

end Rtcg
