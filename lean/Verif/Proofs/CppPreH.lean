import Verif.Proofs.CppPrelude
import Verif.Proofs.CppPreTree

/-
What follows rtcg.h is read as if rtcg.h were not there.
-/

namespace Rtcg

namespace Spec

namespace Cpp

namespace Pre

open Parse Tree

theorem items_cons {n : Nat} {i : Item} {a rest : List Tok} (ha : a ≠ []) (h : item n (a ++ rest) = some (i, rest)) :
    items (n + 1) (a ++ rest) = (items n rest).bind fun is => some (i :: is) := by
  cases a with
  | nil => exact absurd rfl ha
  | cons t a =>
    rw [List.cons_append] at h ⊢
    rw [items]
    · simp only [h, bind, Option.bind]
    · simp

/-- Items before others -/
theorem items_append (is : List Item) (h : ∀ i ∈ is, OkItem i) (rest : List Tok) (hr : next (.op c!";") rest = false) (n : Nat)
    (hn : 16 * (pItems is).length ≤ n) : items (n + is.length) (pItems is ++ rest) = (items n rest).map (is ++ ·) := by
  induction is with
  | nil => simp [pItems]
  | cons i is ih =>
    have hp : pItems (i :: is) = pItem i ++ pItems is := rfl
    rw [hp] at hn ⊢
    rw [List.length_append] at hn
    have hi := h i (by simp)
    have hr' : next (.op c!";") (pItems is ++ rest) = false := by
      cases is with
      | nil => exact hr
      | cons j js =>
        have := (pItem_first j (h j (by simp)) (pItems js ++ rest)).2
        rwa [show pItems (j :: js) = pItem j ++ pItems js from rfl, List.append_assoc]
    have hne : pItem i ≠ [] := by
      have := (pItem_first i hi [])
      intro h0
      rw [h0] at this
      exact absurd this (by simp)
    have h2 := ih (fun j hj => h j (List.mem_cons_of_mem _ hj)) (by omega)
    rw [List.append_assoc, List.length_cons, ← Nat.add_assoc,
      items_cons hne (item_print i hi _ (fun _ => hr') (n + is.length) (by omega)), h2]
    cases items n rest <;> rfl

def outcomeToks : List Tok :=
  [.word c!"enum", .word c!"class", .word c!"Outcome", .op c!"{", .word c!"UNSET", .op c!",", .word c!"INC", .op c!",", .word c!"PASS",
    .op c!",", .word c!"FAIL", .op c!"}", .op c!";"]

def shiftToks (e : Str) : List Tok :=
  [.word c!"std", .op c!"::", .word c!"ostream", .op c!"&", .word c!"operator", .op c!"<<", .op c!"(", .word c!"std", .op c!"::",
    .word c!"ostream", .op c!"&", .word c!"stm", .op c!",", .word c!"rtcg", .op c!"::", .word e, .word c!"o", .op c!")", .op c!";"]

theorem outcomeToks_item (n : Nat) (rest : List Tok) : item (n + 20) (outcomeToks ++ rest) = some (.enum c!"Outcome" outcomeNames, rest) :=
  rfl

theorem shiftToks_item (e : Str) (he : e = c!"Status" ∨ e = c!"Outcome") (n : Nat) (rest : List Tok) : item (n + 20) (shiftToks e ++ rest) =
    some (.fn (some ostream) [c!"operator<<"] [(ostream, c!"stm"), (ty [c!"rtcg", e], c!"o")] none, rest) := by
  rcases he with rfl | rfl <;> rfl

theorem lex_rtcgH : lex TemplateFiles.rtcgH = pItems (rtcgHItems.take 1) ++ (outcomeToks ++ (pItems ((rtcgHItems.drop 2).take 14) ++
    (shiftToks c!"Status" ++ shiftToks c!"Outcome"))) := by decide +kernel

theorem ok_first : ∀ i ∈ rtcgHItems.take 1, OkItem i := by
  simp (config := { decide := true }) [rtcgHItems, OkItem]

theorem ok_rest : ∀ i ∈ (rtcgHItems.drop 2).take 14, OkItem i := by
  simp (config := { decide := true }) [rtcgHItems, OkItem, OkType, OkTypeName, OkQ, builtin, ty, cstr, OkE, lvl, statusNames]

/-- Items after rtcg.h -/
theorem parse_after (is : List Item) (h : ∀ i ∈ is, OkItem i) : parse (lex TemplateFiles.rtcgH ++ pItems is) = some (rtcgHItems ++ is) := by
  unfold parse
  have hl : (lex TemplateFiles.rtcgH).length = 132 := by decide +kernel
  rw [List.length_append, hl, lex_rtcgH]
  obtain ⟨n, hn⟩ : ∃ n, 16 * (132 + (pItems is).length) + 16 = n + 1 + 1 + 14 + 1 + 1 ∧ 2000 + 16 * (pItems is).length ≤ n :=
    ⟨16 * (132 + (pItems is).length) - 2, by omega, by omega⟩
  rw [hn.1]
  simp only [List.append_assoc]
  have l1 : 16 * (pItems (rtcgHItems.take 1)).length ≤ 100 := by decide +kernel
  have l2 : 16 * (pItems ((rtcgHItems.drop 2).take 14)).length ≤ 1900 := by decide +kernel
  obtain ⟨k, rfl⟩ : ∃ k, n = k + 20 := ⟨n - 20, by omega⟩
  have e1 := items_append (rtcgHItems.take 1) ok_first (outcomeToks ++ (pItems ((rtcgHItems.drop 2).take 14) ++
    (shiftToks c!"Status" ++ (shiftToks c!"Outcome" ++ pItems is)))) rfl (k + 20 + 1 + 1 + 14 + 1) (by omega)
  have e2 := items_cons (n := k + 20 + 1 + 1 + 14) (a := outcomeToks) (by decide) (outcomeToks_item (k + 16) (pItems ((rtcgHItems.drop 2).take 14) ++
    (shiftToks c!"Status" ++ (shiftToks c!"Outcome" ++ pItems is))))
  have e3 := items_append ((rtcgHItems.drop 2).take 14) ok_rest (shiftToks c!"Status" ++ (shiftToks c!"Outcome" ++ pItems is)) rfl
    (k + 20 + 1 + 1) (by omega)
  have e4 := items_cons (n := k + 20 + 1) (a := shiftToks c!"Status") (by decide) (shiftToks_item c!"Status" (.inl rfl) (k + 1) (shiftToks c!"Outcome" ++ pItems is))
  have e5 := items_cons (n := k + 20) (a := shiftToks c!"Outcome") (by decide) (shiftToks_item c!"Outcome" (.inr rfl) k (pItems is))
  have e6 := items_print is h (k + 20) (by omega)
  have f3 : ((rtcgHItems.drop 2).take 14).length = 14 := by decide
  rw [f3] at e3
  have f1 : (rtcgHItems.take 1).length = 1 := by decide
  rw [f1] at e1
  rw [e1, e2, e3, e4, e5, e6]
  rfl

theorem parse_rtcgBoth : parse (lex TemplateFiles.rtcgH ++ lex TemplateFiles.rtcgCpp) = some (rtcgHItems ++ rtcgCppItems) := by decide +kernel

end Pre

end Cpp

end Spec

end Rtcg
