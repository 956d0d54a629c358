import Verif.Model.Base

namespace Rtcg

section
variable {σ ρ : Type} (step : σ → σ ⊕ ρ)

theorem loop_mono {n m : Nat} {s : σ} {r : ρ} (h : loop step n s = some r) (hnm : n ≤ m) :
    loop step m s = some r := by
  induction n generalizing m s with
  | zero => simp [loop] at h
  | succ n ih =>
    obtain ⟨m, rfl⟩ : ∃ k, m = k + 1 := ⟨m - 1, by omega⟩
    unfold loop at h ⊢
    cases hs : step s with
    | inl s' => rw [hs] at h; exact ih h (by omega)
    | inr r' => rw [hs] at h; exact h

variable {step} in
theorem loop_some_of_measure (μ : σ → Nat) (hdec : ∀ s s', step s = .inl s' → μ s' < μ s) :
    ∀ (n : Nat) (s : σ), μ s < n → ∃ r, loop step n s = some r := by
  intro n
  induction n with
  | zero => intro s h; omega
  | succ n ih =>
    intro s h
    unfold loop
    cases hs : step s with
    | inl s' => exact ih s' (by have := hdec s s' hs; omega)
    | inr r => exact ⟨r, rfl⟩

variable {step} in
/-- With enough fuel the loop satisfies its recursion equation. -/
theorem loop_eq_of_measure (μ : σ → Nat) (hdec : ∀ s s', step s = .inl s' → μ s' < μ s) (n : Nat) (s : σ)
    (h : μ s < n) :
    loop step n s = match step s with
      | .inl s' => loop step (μ s' + 1) s'
      | .inr r => some r := by
  obtain ⟨n, rfl⟩ : ∃ k, n = k + 1 := ⟨n - 1, by omega⟩
  rw [loop]
  cases hs : step s with
  | inr r => rfl
  | inl s' =>
    have hlt := hdec s s' hs
    obtain ⟨r, hr⟩ := loop_some_of_measure μ hdec (μ s' + 1) s' (by omega)
    simp only [hr]
    exact loop_mono step hr (by omega)

variable {step} in
/-- The fuel does not matter once it is enough. -/
theorem loop_fuel_irrelevant (μ : σ → Nat) (hdec : ∀ s s', step s = .inl s' → μ s' < μ s) {n m : Nat} {s : σ}
    (hn : μ s < n) (hm : μ s < m) : loop step n s = loop step m s := by
  obtain ⟨r, hr⟩ := loop_some_of_measure μ hdec (μ s + 1) s (by omega)
  rw [loop_mono step hr hn, loop_mono step hr hm]

end

end Rtcg
