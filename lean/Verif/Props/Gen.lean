import Verif.Spec.Gen
import Verif.Proofs.Text
import Verif.Proofs.Replace
import Verif.Proofs.Lang
import Verif.Props.Stm
import Mathlib.Data.List.Infix

/-
C43–C48: names in the generated code, package files, C++ configuration.
-/

namespace Rtcg

open Spec Strmanip

/-! ### ASCII facts -/

section Ascii
variable {U : Unicode} (hU : U.AsciiOK)
include hU

theorem isUpper_under : U.isUpper '_' = false := by rw [hU.isUpper _ (by decide)]; decide
theorem isLower_under : U.isLower '_' = false := by rw [hU.isLower _ (by decide)]; decide
theorem toLower_under : U.toLower '_' = '_' := by rw [hU.toLower _ (by decide)]; decide

theorem toLower_ascii (c : Char) (h : c.toNat < 128) : (U.toLower c).toNat < 128 ∧ U.isUpper (U.toLower c) = false ∧
    U.toLower (U.toLower c) = U.toLower c := by
  have hv : ∀ n, n < 128 → (Char.ofNat n).toNat = n := by decide
  have e := hU.toLower c h
  by_cases hc : 65 ≤ c.toNat ∧ c.toNat ≤ 90
  · rw [if_pos hc] at e
    have hn := hv (c.toNat + 32) (by omega)
    rw [e]
    have hlt : (Char.ofNat (c.toNat + 32)).toNat < 128 := by rw [hn]; omega
    refine ⟨hlt, ?_, ?_⟩
    · rw [hU.isUpper _ hlt, hn]; simp; omega
    · rw [hU.toLower _ hlt, hn, if_neg (by omega)]
  · rw [if_neg hc] at e
    rw [e]
    refine ⟨h, ?_, e⟩
    rw [hU.isUpper _ h]
    simp only [Bool.and_eq_false_iff, decide_eq_false_iff_not]
    omega
end Ascii

/-! ### C43 -/

theorem zip_shift (p : Option Char) (s : Str) : List.zip (p :: s.map some) s =
    match s with
    | [] => []
    | c :: cs => (p, c) :: List.zip (some c :: cs.map some) cs := by
  cases s <;> rfl

theorem format_fold {U : Unicode} (h1 : U.isUpper '_' = false) (h2 : U.isLower '_' = false) (s : Str) (sb : Str) (p : Option Char) (b : Bool)
    (hb : b = true ↔ ∃ q, p = some q ∧ U.isLower q = true) :
    (s.foldl (Formatter.step U) { sb := sb, lastLower := b }).sb =
      sb ++ (List.zip (p :: s.map some) s).flatMap (lowerPiece U) := by
  induction s generalizing sb p b with
  | nil => simp
  | cons c cs ih =>
    rw [zip_shift, List.foldl_cons]
    simp only [List.flatMap_cons]
    have hstep : Formatter.step U { sb := sb, lastLower := b } c = { sb := sb ++ lowerPiece U (p, c), lastLower := U.isLower c } := by
      unfold Formatter.step lowerPiece
      by_cases hu : U.isUpper c = true
      · have hc : c ≠ '_' := by rintro rfl; rw [h1] at hu; cases hu
        by_cases hbt : b = true
        · have := hb.1 hbt
          simp only [hu, hbt, Bool.and_self, if_true, Formatter.markSplit, Formatter.addChar, hc, if_false, this, and_self]
          simp
        · have : ¬ ∃ q, p = some q ∧ U.isLower q = true := fun h => hbt (hb.2 h)
          simp only [hu, hbt, Bool.and_false, Formatter.addChar, hc, if_false, this, and_false]
          simp
      · simp only [hu, Bool.false_and, Formatter.markSplit, Formatter.addChar]
        by_cases hc : c = '_'
        · subst hc; simp [h2]
        · simp [hc]
    rw [hstep, ih _ (some c) _ (by simp)]
    simp

/-- ToLowerUnderscored writes every character in lower case, preceded by an underscore exactly when it is an upper-case letter
straight after a lower-case one. -/
theorem C43_lowerUnderscored (U : Unicode) (hU : U.AsciiOK) (s : Str) :
    toLowerUnderscored U s = (withPrevious s).flatMap (lowerPiece U) := by
  have := format_fold (isUpper_under hU) (isLower_under hU) s [] none false (by simp)
  rw [List.nil_append] at this
  exact this

theorem mem_zip_right {α β : Type} {l : List α} {l' : List β} {x : α × β} (h : x ∈ List.zip l l') : x.2 ∈ l' :=
  (List.of_mem_zip (a := x.1) (b := x.2) h).2

/-- Of an ASCII text it leaves no upper-case letter. -/
theorem C43_no_upper (U : Unicode) (hU : U.AsciiOK) (s : Str) (hs : Ascii s) :
    Ascii (toLowerUnderscored U s) ∧ ∀ c ∈ toLowerUnderscored U s, U.isUpper c = false ∧ U.toLower c = c := by
  rw [C43_lowerUnderscored U hU]
  have key : ∀ c ∈ (withPrevious s).flatMap (lowerPiece U), c.toNat < 128 ∧ U.isUpper c = false ∧ U.toLower c = c := by
    intro c hc
    obtain ⟨x, hx, hc⟩ := List.mem_flatMap.1 hc
    have hund : ('_' : Char).toNat < 128 ∧ U.isUpper '_' = false ∧ U.toLower '_' = '_' :=
      ⟨by decide, isUpper_under hU, toLower_under hU⟩
    unfold lowerPiece at hc
    rcases List.mem_append.1 hc with h | h
    · split at h
      · rw [List.mem_singleton] at h; subst h; exact hund
      · simp at h
    · rw [List.mem_singleton] at h
      split at h
      · subst h; exact hund
      · subst h; exact toLower_ascii hU _ (hs _ (mem_zip_right hx))
  exact ⟨fun c hc => (key c hc).1, fun c hc => (key c hc).2⟩

/-- On ASCII texts it is idempotent. -/
theorem C43_idempotent (U : Unicode) (hU : U.AsciiOK) (s : Str) (hs : Ascii s) :
    toLowerUnderscored U (toLowerUnderscored U s) = toLowerUnderscored U s := by
  obtain ⟨_, h2⟩ := C43_no_upper U hU s hs
  generalize toLowerUnderscored U s = t at h2
  rw [C43_lowerUnderscored U hU]
  unfold withPrevious
  have key : ∀ (p : Option Char), (List.zip (p :: t.map some) t).flatMap (lowerPiece U) = t := by
    induction t with
    | nil => intro p; simp
    | cons c cs ih =>
      intro p
      rw [zip_shift]
      simp only [List.flatMap_cons]
      rw [ih (fun x hx => h2 x (by simp [hx])) (some c)]
      obtain ⟨a, b⟩ := h2 c (by simp)
      unfold lowerPiece
      simp only [a, Bool.false_eq_true, false_and, if_false, List.nil_append, b]
      split
      · rename_i h; rw [h]; rfl
      · rfl
  exact key none

/-- It is not injective, even on ASCII identifiers: two channels can get the same topic. -/
theorem C43_not_injective (U : Unicode) (hU : U.AsciiOK) :
    toLowerUnderscored U c!"fooBar" = toLowerUnderscored U c!"foo_bar" := by
  rw [C43_lowerUnderscored U hU, C43_lowerUnderscored U hU]
  simp only [withPrevious, List.map_cons, List.map_nil, List.zip_cons_cons, List.zip_nil_right, List.flatMap_cons, List.flatMap_nil,
    lowerPiece]
  simp [hU.isUpper, hU.isLower, hU.toLower]

/-- The ASCII part of Go's tables, for the examples. -/
def asciiUnicode : Unicode where
  isUpper c := 65 ≤ c.toNat && c.toNat ≤ 90
  isLower c := 97 ≤ c.toNat && c.toNat ≤ 122
  toUpper c := if 97 ≤ c.toNat ∧ c.toNat ≤ 122 then Char.ofNat (c.toNat - 32) else c
  toLower c := if 65 ≤ c.toNat ∧ c.toNat ≤ 90 then Char.ofNat (c.toNat + 32) else c

theorem asciiUnicode_ok : asciiUnicode.AsciiOK := ⟨fun _ _ => rfl, fun _ _ => rfl, fun _ _ => rfl, fun _ _ => rfl⟩

example : toLowerUnderscored asciiUnicode c!"PascalCase_X" = c!"pascal_case_x" := by decide

/-! ### C44 -/

/-- UpcaseFirst upper-cases the first character and leaves the rest alone. -/
theorem C44_upcaseFirst (U : Unicode) :
    upcaseFirst U [] = [] ∧ ∀ c s, upcaseFirst U (c :: s) = U.toUpper c :: s := by
  refine ⟨rfl, fun c s => ?_⟩
  unfold upcaseFirst
  have key : ∀ (s : Str) (k : Nat) (acc : Str), (s.zipIdx (k + 1)).foldl
      (fun build (ci : Char × Nat) => build ++ [if ci.2 = 0 then U.toUpper ci.1 else ci.1]) acc = acc ++ s := by
    intro s
    induction s with
    | nil => intro k acc; simp
    | cons d s ih => intro k acc; rw [List.zipIdx_cons, List.foldl_cons, ih]; simp
  rw [List.zipIdx_cons, List.foldl_cons, key]
  simp

/-- It is idempotent on a text exactly when upper-casing its first character is. -/
theorem C44_idempotent (U : Unicode) (c : Char) (s : Str) :
    upcaseFirst U (upcaseFirst U (c :: s)) = upcaseFirst U (c :: s) ↔ U.toUpper (U.toUpper c) = U.toUpper c := by
  simp only [(C44_upcaseFirst U).2, List.cons.injEq, and_true]

/-- Texts that agree up to the first letter and that letter's case are confused, no others. -/
theorem C44_confusion (U : Unicode) (c d : Char) (s t : Str) :
    upcaseFirst U (c :: s) = upcaseFirst U (d :: t) ↔ U.toUpper c = U.toUpper d ∧ s = t := by
  simp only [(C44_upcaseFirst U).2, List.cons.injEq]

example : upcaseFirst asciiUnicode c!"camelCase" = c!"CamelCase" := by decide

/-! ### C45 -/

theorem upper_digits {U : Unicode} (hU : U.AsciiOK) (n : Nat) : (decNat n).map U.toUpper = decNat n := by
  rw [List.map_congr_left (g := id), List.map_id]
  intro d hd
  obtain ⟨h1, h2⟩ := decNat_digits n d hd
  have h1' : 48 ≤ d.toNat := h1
  have h2' : d.toNat ≤ 57 := h2
  rw [hU.toUpper d (by omega), if_neg (by omega)]; rfl

theorem stateEnum_step {U : Unicode} (hU : U.AsciiOK) (n : Nat) :
    Cpp.stateEnum U (c!"step" ++ decNat n) = c!"State::STEP" ++ decNat n := by
  unfold Cpp.stateEnum Cpp.localEnumName Cpp.enumField Unicode.strToUpper
  rw [List.map_append, upper_digits hU]
  simp [hU.toUpper]

theorem stateEnum_initial {U : Unicode} (hU : U.AsciiOK) : Cpp.stateEnum U c!"initial" = c!"State::INITIAL" := by
  unfold Cpp.stateEnum Cpp.localEnumName Cpp.enumField Unicode.strToUpper
  simp [hU.toUpper]

theorem stateEntry_step {U : Unicode} (hU : U.AsciiOK) (n : Nat) :
    Cpp.stateEntry U (c!"step" ++ decNat n) = c!"enterStep" ++ decNat n := by
  unfold Cpp.stateEntry
  rw [show c!"step" ++ decNat n = 's' :: (c!"tep" ++ decNat n) from rfl, (C44_upcaseFirst U).2]
  simp [hU.toUpper]

theorem stateEntry_initial {U : Unicode} (hU : U.AsciiOK) : Cpp.stateEntry U c!"initial" = c!"enterInitial" := by
  unfold Cpp.stateEntry
  rw [(C44_upcaseFirst U).2]
  simp [hU.toUpper]

/-- Machines built from trees without caller-assigned IDs have distinct state enum members and distinct entry functions. -/
theorem C45_names_distinct (U : Unicode) (hU : U.AsciiOK) (b b' : Builder) (root : Node) (t t' : Validate.Test) (m : Stm)
    (hv : Validate.full (some root) = some (.ok t)) (h : b.build t = some (.ok (b', m, t'))) (hno : NoIds root) :
    (m.states.map (fun s => Cpp.stateEnum U s.id)).Nodup ∧ (m.states.map (fun s => Cpp.stateEntry U s.id)).Nodup := by
  have hform := C29_id_form b b' root t t' m hv h hno
  have hnd := (C29_state_ids b b' root t t' m hv h).2 hno
  have key : ∀ f : Str → Str, (∀ x y, (x = c!"initial" ∨ ∃ k, x = c!"step" ++ decNat k) →
      (y = c!"initial" ∨ ∃ k, y = c!"step" ++ decNat k) → f x = f y → x = y) → (m.states.map (fun s => f s.id)).Nodup := by
    intro f hf
    have e : m.states.map (fun s => f s.id) = (m.states.map (·.id)).map f := by rw [List.map_map]; rfl
    rw [e]
    apply List.Nodup.map_on _ hnd
    intro x hx y hy
    obtain ⟨s, hs, rfl⟩ := List.mem_map.1 hx
    obtain ⟨s', hs', rfl⟩ := List.mem_map.1 hy
    exact hf _ _ (hform s hs) (hform s' hs')
  constructor
  · apply key
    rintro x y (rfl | ⟨k, rfl⟩) (rfl | ⟨l, rfl⟩) he
    · rfl
    · rw [stateEnum_initial hU, stateEnum_step hU] at he; simp at he
    · rw [stateEnum_initial hU, stateEnum_step hU] at he; simp at he
    · rw [stateEnum_step hU, stateEnum_step hU] at he
      rw [decNat_inj (List.append_cancel_left he)]
  · apply key
    rintro x y (rfl | ⟨k, rfl⟩) (rfl | ⟨l, rfl⟩) he
    · rfl
    · rw [stateEntry_initial hU, stateEntry_step hU] at he; simp at he
    · rw [stateEntry_initial hU, stateEntry_step hU] at he; simp at he
    · rw [stateEntry_step hU, stateEntry_step hU] at he
      rw [decNat_inj (List.append_cancel_left he)]

/-- IDs that differ only in case are confused. -/
theorem C45_case_clash (U : Unicode) (hU : U.AsciiOK) : Cpp.stateEnum U c!"a" = Cpp.stateEnum U c!"A" ∧
    Cpp.stateEntry U c!"a" = Cpp.stateEntry U c!"A" := by
  unfold Cpp.stateEnum Cpp.localEnumName Cpp.enumField Unicode.strToUpper Cpp.stateEntry
  simp [(C44_upcaseFirst U).2, hU.toUpper]

example : ∃ t b' m t', Validate.full (some exTree) = some (.ok t) ∧ Builder.zero.build t = some (.ok (b', m, t')) ∧ NoIds exTree ∧
    m.states.map (fun s => Cpp.stateEnum asciiUnicode s.id) ≠ [] := by
  refine ⟨⟨exTree⟩, _, _, _, by rfl, by rfl, ?_, by decide⟩
  intro p n h
  have hm := mem_preorder.2 ⟨p, (List.nil_append p).symm, h⟩
  have all : ∀ x ∈ preorder [] exTree, x.2.id = [] := by decide
  exact all _ hm

/-! ### C46 -/

theorem autofillOne_ne (i d : Str) (hd : d ≠ []) : Catkin.autofillOne i d ≠ [] := by
  unfold Catkin.autofillOne; split <;> assumption

theorem autofillOne_keep (i d : Str) (hi : i ≠ []) : Catkin.autofillOne i d = i := by
  unfold Catkin.autofillOne; rw [if_neg hi]

/-- Autofill sets the format, keeps every non-empty field and the dependencies, and leaves no metadata field empty. -/
theorem C46_autofill (p : Catkin.Package) :
    p.autofill.format = 2 ∧ p.autofill.buildtoolDepends = p.buildtoolDepends ∧ p.autofill.depends = p.depends ∧
    (p.name ≠ [] → p.autofill.name = p.name) ∧ (p.version ≠ [] → p.autofill.version = p.version) ∧
    (p.description ≠ [] → p.autofill.description = p.description) ∧
    (p.maintainer.name ≠ [] → p.autofill.maintainer.name = p.maintainer.name) ∧
    (p.maintainer.email ≠ [] → p.autofill.maintainer.email = p.maintainer.email) ∧
    (p.license ≠ [] → p.autofill.license = p.license) ∧
    p.autofill.name ≠ [] ∧ p.autofill.version ≠ [] ∧ p.autofill.description ≠ [] ∧ p.autofill.maintainer.name ≠ [] ∧
    p.autofill.maintainer.email ≠ [] ∧ p.autofill.license ≠ [] :=
  ⟨rfl, rfl, rfl, autofillOne_keep _ _, autofillOne_keep _ _, autofillOne_keep _ _, autofillOne_keep _ _, autofillOne_keep _ _,
    autofillOne_keep _ _, autofillOne_ne _ _ (by simp), autofillOne_ne _ _ (by simp), autofillOne_ne _ _ (by simp),
    autofillOne_ne _ _ (by simp), autofillOne_ne _ _ (by simp), autofillOne_ne _ _ (by simp)⟩

/-- The documented defaults for the empty fields. -/
theorem C46_defaults (p : Catkin.Package) :
    (p.name = [] → p.autofill.name = c!"${NAME}") ∧ (p.version = [] → p.autofill.version = c!"0.1.0") ∧
    (p.description = [] → p.autofill.description = c!"Package for ${NAME}") ∧
    (p.maintainer.name = [] → p.autofill.maintainer.name = c!"${NAME} Maintainers") ∧
    (p.maintainer.email = [] → p.autofill.maintainer.email = c!"email@example.com") ∧
    (p.license = [] → p.autofill.license = c!"Proprietary") := by
  simp only [Catkin.Package.autofill, Catkin.autofillOne]
  refine ⟨?_, ?_, ?_, ?_, ?_, ?_⟩ <;> intro h <;> rw [h, if_pos rfl]

theorem C46_idempotent (p : Catkin.Package) : p.autofill.autofill = p.autofill := by
  obtain ⟨_, _, _, _, _, _, _, _, _, h1, h2, h3, h4, h5, h6⟩ := C46_autofill p
  have : p.autofill.autofill = { p.autofill with
    format := 2, name := Catkin.autofillOne p.autofill.name c!"${NAME}",
    description := Catkin.autofillOne p.autofill.description c!"Package for ${NAME}",
    maintainer := { name := Catkin.autofillOne p.autofill.maintainer.name c!"${NAME} Maintainers",
                    email := Catkin.autofillOne p.autofill.maintainer.email c!"email@example.com" },
    license := Catkin.autofillOne p.autofill.license c!"Proprietary",
    version := Catkin.autofillOne p.autofill.version c!"0.1.0" } := rfl
  rw [this, autofillOne_keep _ _ h1, autofillOne_keep _ _ h2, autofillOne_keep _ _ h3, autofillOne_keep _ _ h4,
    autofillOne_keep _ _ h5, autofillOne_keep _ _ h6]
  rfl

example : (Catkin.Package.zero.autofill).name = c!"${NAME}" ∧
    ({ Catkin.Package.zero with name := c!"mine" }.autofill).name = c!"mine" := by decide

/-! ### C47 -/

/-- Expand replaces the placeholder in exactly five fields — everywhere: the text is cut at all occurrences of the placeholder and
put together again with the name — and touches nothing else. -/
theorem C47_expand (p : Catkin.Package) (name : Str) :
    Replaced p.name placeholder name (p.expand name).name ∧
    Replaced p.description placeholder name (p.expand name).description ∧
    Replaced p.maintainer.name placeholder name (p.expand name).maintainer.name ∧
    Replaced p.maintainer.email placeholder name (p.expand name).maintainer.email ∧
    Replaced p.license placeholder name (p.expand name).license ∧
    (p.expand name).version = p.version ∧ (p.expand name).format = p.format ∧
    (p.expand name).buildtoolDepends = p.buildtoolDepends ∧ (p.expand name).depends = p.depends :=
  have h := fun s => replaceAll_replaced placeholder name (by simp) s
  ⟨h _, h _, h _, h _, h _, rfl, rfl, rfl, rfl⟩

/-- Replacing the placeholder has one possible result. -/
theorem C47_replaced_unique {s name r r' : Str} (h : Replaced s placeholder name r) (h' : Replaced s placeholder name r') :
    r = r' := (replaced_unique h).trans (replaced_unique h').symm

/-- No placeholder is left, unless the test name can be part of one. -/
theorem C47_none_left (template name : Str) (h1 : '$' ∉ name) (h2 : '}' ∉ name) (h3 : ¬ name <:+: placeholder) :
    ¬ placeholder <:+: Catkin.expandOne template name := by
  obtain ⟨segs, _, hs, e⟩ := replaceAll_replaced placeholder name (by simp) template
  unfold Catkin.expandOne
  rw [e]
  exact no_placeholder_intercalate name h1 h2 h3 segs hs

/-- The proviso is needed: the name NAME can complete a placeholder. -/
theorem C47_name_can_complete : Catkin.expandOne c!"${${NAME}}" c!"NAME" = placeholder := by decide

/-- A fresh package for a test has that test's name in name, description and maintainer. -/
theorem C47_default_package (test : Str) :
    (Catkin.forTest none test).name = test ∧ (Catkin.forTest none test).description = c!"Package for " ++ test ∧
    (Catkin.forTest none test).maintainer.name = test ++ c!" Maintainers" ∧
    (Catkin.forTest none test).license = c!"Proprietary" ∧ (Catkin.forTest none test).version = c!"0.1.0" := by
  have e : ∀ s seg rest, s = seg ++ (placeholder ++ rest) → ¬ placeholder <:+: seg → ¬ placeholder <:+: rest →
      replaceAll s placeholder test = seg ++ (test ++ rest) := by
    intro s seg rest h h1 h2
    rw [h, replaceAll_seg test seg rest h1, replaceAll_none test rest h2]
  refine ⟨?_, ?_, ?_, ?_, rfl⟩
  · have := e placeholder [] [] rfl (by decide) (by decide)
    rw [List.nil_append, List.append_nil] at this
    exact this
  · have := e c!"Package for ${NAME}" c!"Package for " [] rfl (by decide) (by decide)
    rw [List.append_nil] at this
    exact this
  · have := e c!"${NAME} Maintainers" [] c!" Maintainers" rfl (by decide) (by decide)
    exact this
  · exact replaceAll_none test c!"Proprietary" (by decide)

/-- The package written for a test: each configured field, or its default if that is empty, with the placeholder replaced by the name of
the test; version and dependencies as configured. -/
theorem C47_for_test (p : Catkin.Package) (test : Str) :
    Replaced (if p.name = [] then placeholder else p.name) placeholder test (Catkin.forTest (some p) test).name ∧
    Replaced (if p.description = [] then c!"Package for ${NAME}" else p.description) placeholder test
      (Catkin.forTest (some p) test).description ∧
    Replaced (if p.maintainer.name = [] then c!"${NAME} Maintainers" else p.maintainer.name) placeholder test
      (Catkin.forTest (some p) test).maintainer.name ∧
    Replaced (if p.maintainer.email = [] then c!"email@example.com" else p.maintainer.email) placeholder test
      (Catkin.forTest (some p) test).maintainer.email ∧
    Replaced (if p.license = [] then c!"Proprietary" else p.license) placeholder test (Catkin.forTest (some p) test).license ∧
    (Catkin.forTest (some p) test).version = (if p.version = [] then c!"0.1.0" else p.version) ∧
    (Catkin.forTest (some p) test).format = 2 ∧
    (Catkin.forTest (some p) test).buildtoolDepends = p.buildtoolDepends ∧
    (Catkin.forTest (some p) test).depends = p.depends := by
  obtain ⟨h1, h2, h3, h4, h5, h6, h7, h8, h9⟩ := C47_expand p.autofill test
  exact ⟨h1, h2, h3, h4, h5, h6, h7, h8, h9⟩

example : (Catkin.forTest (some { Catkin.Package.zero with name := c!"bmon-${NAME}" }) c!"test1").name = c!"bmon-test1" ∧
    ¬ (c!"test1" : Str) <:+: placeholder := by decide

/-! ### C48 -/

theorem channelMap_get? (c : CppConfig.Config) (name : Str) : GoMap.get? c.channelMap name = configuredType c name := by
  unfold CppConfig.Config.channelMap configuredType
  have key : ∀ (l : List CppConfig.Channel) (m : GoMap Str Str),
      GoMap.get? (l.foldl (fun cmap over => GoMap.set cmap over.name over.type) m) name =
        (((l.filter (fun ch => ch.name = name)).getLast?).map (·.type)).or (GoMap.get? m name) := by
    intro l
    induction l with
    | nil => intro m; simp
    | cons ch l ih =>
      intro m
      rw [List.foldl_cons, ih, GoMap.get?_set]
      by_cases h : ch.name = name
      · rw [List.filter_cons_of_pos (by simpa using h), if_pos h, List.getLast?_cons]
        cases (l.filter (fun ch => ch.name = name)).getLast? <;> simp
      · rw [List.filter_cons_of_neg (by simpa using h), if_neg h]
  rw [key]; simp [GoMap.get?]

/-- The context has one entry for each channel with an inferred type: that type and the last configured override (blank if none).
Conversions are needed exactly when a typed channel is configured. -/
theorem C48_process (c : CppConfig.Config) (types : TypeMap) (hwf : GoMap.WF types) :
    (c.process types).includes = c.includes ∧ GoMap.WF (c.process types).channelTypes ∧
    (∀ name, GoMap.get? (c.process types).channelTypes name =
      (GoMap.get? types name).map (fun ty => ⟨ty, (configuredType c name).getD []⟩)) ∧
    ((c.process types).hasConversion = true ↔ ∃ name ty, (name, ty) ∈ types ∧ ∃ ch ∈ c.channels, ch.name = name) := by
  have key : ∀ (l : TypeMap) (ctx : CppConfig.Context), GoMap.WF l → GoMap.WF ctx.channelTypes →
      let r := l.foldl (CppConfig.processStep c.channelMap) ctx
      r.includes = ctx.includes ∧ GoMap.WF r.channelTypes ∧
      (∀ name, GoMap.get? r.channelTypes name =
        ((GoMap.get? l name).map (fun ty => (⟨ty, (configuredType c name).getD []⟩ : CppConfig.ChannelType))).or (GoMap.get? ctx.channelTypes name)) ∧
      (r.hasConversion = true ↔ ctx.hasConversion = true ∨ ∃ nt ∈ l, (configuredType c nt.1).isSome = true) := by
    intro l
    induction l with
    | nil => intro ctx _ h; exact ⟨rfl, h, fun name => by simp [GoMap.get?], by simp⟩
    | cons nt l ih =>
      intro ctx hl hc
      have hl' : GoMap.WF l ∧ nt.1 ∉ GoMap.keys l := by
        unfold GoMap.WF at hl ⊢; rw [List.map_cons, List.nodup_cons] at hl; exact ⟨hl.2, hl.1⟩
      obtain ⟨a1, a2, a3, a4⟩ := ih (CppConfig.processStep c.channelMap ctx nt) hl'.1 (GoMap.wf_set hc _ _)
      refine ⟨a1, a2, fun name => ?_, ?_⟩
      · rw [List.foldl_cons, a3]
        unfold CppConfig.processStep
        simp only [GoMap.get?_set, channelMap_get?]
        obtain ⟨n, t⟩ := nt
        rw [GoMap.get?]
        by_cases h : n = name
        · subst h
          have := GoMap.get?_eq_none_iff.2 hl'.2
          simp only at this
          rw [if_pos rfl, if_pos rfl, this]; simp
        · rw [if_neg h, if_neg h]
      · rw [List.foldl_cons, a4]
        unfold CppConfig.processStep
        simp only [channelMap_get?, List.mem_cons, exists_eq_or_imp]
        cases (configuredType c nt.1).isSome <;> simp
  obtain ⟨h1, h2, h3, h4⟩ := key types ⟨c.includes, [], false⟩ hwf GoMap.wf_nil
  have e : c.process types = types.foldl (CppConfig.processStep c.channelMap) ⟨c.includes, [], false⟩ := rfl
  rw [e]
  refine ⟨h1, h2, fun name => ?_, ?_⟩
  · rw [h3]; simp [GoMap.get?]
  · rw [h4]
    have hs : ∀ name, (configuredType c name).isSome = true ↔ ∃ ch ∈ c.channels, ch.name = name := by
      intro name
      unfold configuredType
      simp [List.filter_eq_nil_iff]
    simp only [Bool.false_eq_true, false_or, hs]
    constructor
    · rintro ⟨⟨n, t⟩, h, h'⟩; exact ⟨n, t, h, h'⟩
    · rintro ⟨n, t, h, h'⟩; exact ⟨(n, t), h, h'⟩

/-- The order in which the type map is visited does not matter. -/
theorem C48_order (c : CppConfig.Config) (types types' : TypeMap) (hwf : GoMap.WF types) (hp : types.Perm types') :
    (c.process types).hasConversion = (c.process types').hasConversion ∧
    GoMap.Equiv (c.process types).channelTypes (c.process types').channelTypes := by
  have hwf' : GoMap.WF types' := (hp.map _).nodup_iff.1 hwf
  obtain ⟨_, _, a, b⟩ := C48_process c types hwf
  obtain ⟨_, _, a', b'⟩ := C48_process c types' hwf'
  constructor
  · rw [Bool.eq_iff_iff, b, b']; simp only [hp.mem_iff]
  · intro name; rw [a, a', GoMap.get?_perm hwf hp]

example : let c : CppConfig.Config := ⟨Variant.ros, [], [⟨c!"a", c!"x"⟩, ⟨c!"a", c!"Msg"⟩], false, none⟩
    (c.process [(c!"a", none), (c!"b", none)]) = ⟨[], [(c!"a", ⟨none, c!"Msg"⟩), (c!"b", ⟨none, []⟩)], true⟩ := by decide

end Rtcg
