import Verif.Spec.Matrix
import Mathlib.Algebra.BigOperators.Field
import Mathlib.Tactic.Ring
import Mathlib.Tactic.Linarith
import Mathlib.Tactic.FieldSimp
import Mathlib.Tactic.Positivity
/-
A real symmetric positive definite matrix has a Cholesky factor.
-/
set_option autoImplicit false
namespace Verif
open Finset

/-- Induction on the size by the Schur complement of the first entry. -/
theorem cholesky_fun : ∀ (n : Nat) (A : Nat → Nat → ℝ), (∀ i j, i < n → j < n → A i j = A j i) →
    (∀ x : Nat → ℝ, (∃ i, i < n ∧ x i ≠ 0) → 0 < ∑ i ∈ range n, ∑ j ∈ range n, x i * A i j * x j) →
    ∃ L : Nat → Nat → ℝ, (∀ i j, i < j → L i j = 0) ∧ (∀ i, i < n → 0 < L i i) ∧ ∀ i j, i < n → j < n → ∑ l ∈ range n, L i l * L j l = A i j := by
  intro n
  induction n with
  | zero => intro A _ _; exact ⟨fun _ _ => 0, fun _ _ _ => rfl, fun i h => by omega, fun i j h => by omega⟩
  | succ n ih =>
    intro A hs hp
    have h00 : 0 < A 0 0 := by
      have := hp (fun i => if i = 0 then 1 else 0) ⟨0, by omega, by simp⟩
      simpa using this
    have key : ∀ (y : Nat → ℝ) (t : ℝ), ∑ i ∈ range (n + 1), ∑ j ∈ range (n + 1), (if i = 0 then t else y (i - 1)) * A i j * (if j = 0 then t else y (j - 1)) =
        t * t * A 0 0 + 2 * t * ∑ i ∈ range n, A (i + 1) 0 * y i + ∑ i ∈ range n, ∑ j ∈ range n, y i * A (i + 1) (j + 1) * y j := by
      intro y t
      rw [sum_range_succ']
      simp only [sum_range_succ', sum_add_distrib]
      simp only [Nat.add_one_sub_one, if_true, Nat.add_eq_zero_iff, one_ne_zero, and_false, if_false]
      have e : ∀ j ∈ range n, t * A 0 (j + 1) * y j = t * (A (j + 1) 0 * y j) := by
        intro j hj
        rw [hs 0 (j + 1) (by omega) (by simpa using hj)]; ring
      have e' : ∀ j ∈ range n, y j * A (j + 1) 0 * t = t * (A (j + 1) 0 * y j) := by
        intro j _; ring
      rw [sum_congr rfl e, sum_congr rfl e', ← mul_sum]
      ring
    let A' : Nat → Nat → ℝ := fun i j => A (i + 1) (j + 1) - A (i + 1) 0 * A (j + 1) 0 / A 0 0
    obtain ⟨L, h1, h2, h3⟩ := ih A' (by
      intro i j hi hj
      show A (i + 1) (j + 1) - _ = A (j + 1) (i + 1) - _
      rw [hs (i + 1) (j + 1) (by omega) (by omega)]; ring) (by
      intro y hy
      obtain ⟨i, hi, hyi⟩ := hy
      have := hp (fun j => if j = 0 then -(∑ i ∈ range n, A (i + 1) 0 * y i) / A 0 0 else y (j - 1)) ⟨i + 1, by omega, by simpa using hyi⟩
      rw [key] at this
      have e : ∑ i ∈ range n, ∑ j ∈ range n, y i * A' i j * y j =
          ∑ i ∈ range n, ∑ j ∈ range n, y i * A (i + 1) (j + 1) * y j - (∑ i ∈ range n, A (i + 1) 0 * y i) * (∑ i ∈ range n, A (i + 1) 0 * y i) / A 0 0 := by
        rw [sum_mul_sum, sum_div, ← sum_sub_distrib]
        apply sum_congr rfl; intro i _
        rw [sum_div, ← sum_sub_distrib]
        apply sum_congr rfl; intro j _
        simp only [A']; ring
      rw [e]
      refine lt_of_lt_of_eq this ?_
      field_simp
      ring)
    have hr : 0 < Real.sqrt (A 0 0) := Real.sqrt_pos.2 h00
    have hrr : Real.sqrt (A 0 0) * Real.sqrt (A 0 0) = A 0 0 := Real.mul_self_sqrt h00.le
    refine ⟨fun i j => if j = 0 then (if i = 0 then Real.sqrt (A 0 0) else A i 0 / Real.sqrt (A 0 0)) else if i = 0 then 0 else L (i - 1) (j - 1), ?_, ?_, ?_⟩
    · intro i j hij
      have : j ≠ 0 := by omega
      simp only [this, if_false]
      by_cases hi : i = 0
      · simp [hi]
      · simp only [hi, if_false]; exact h1 _ _ (by omega)
    · intro i hi
      by_cases h : i = 0
      · simp [h, hr]
      · simp only [h, if_false]; exact h2 _ (by omega)
    · intro i j hi hj
      rw [sum_range_succ']
      simp only [Nat.add_eq_zero_iff, one_ne_zero, and_false, if_false, if_true, Nat.add_one_sub_one]
      by_cases hi0 : i = 0 <;> by_cases hj0 : j = 0
      · subst hi0; subst hj0; simp [hrr]
      · subst hi0
        simp only [hj0, if_true, if_false, zero_mul, sum_const_zero, zero_add]
        rw [hs 0 j (by omega) hj]; field_simp
      · subst hj0
        simp only [hi0, if_true, if_false, mul_zero, sum_const_zero, zero_add]
        field_simp
      · simp only [hi0, hj0, if_false]
        rw [h3 _ _ (by omega) (by omega)]
        simp only [A']
        rw [show i - 1 + 1 = i by omega, show j - 1 + 1 = j by omega]
        have : A i 0 / √(A 0 0) * (A j 0 / √(A 0 0)) = A i 0 * A j 0 / A 0 0 := by
          rw [div_mul_div_comm, hrr]
        rw [this]; ring

theorem cholesky_exists {n : Nat} {M : List (List ℝ)} (h : PosDefinite n M) : ∃ L, CholeskyFactor n M L := by
  obtain ⟨L, h1, h2, h3⟩ := cholesky_fun n (entry M) h.symm h.pos
  have he : ∀ i j, i < n → j < n → entry ((List.range n).map fun i => (List.range n).map fun j => L i j) i j = L i j := by
    intro i j hi hj
    simp [entry, List.getD, hi, hj]
  refine ⟨(List.range n).map fun i => (List.range n).map fun j => L i j, ⟨by simp, by simp⟩, ?_, ?_, ?_⟩
  · intro i j hi hij hj; rw [he i j hi hj, h1 i j hij]
  · intro i hi; rw [he i i hi hi]; exact h2 i hi
  · intro i j hi hj
    rw [← h3 i j hi hj]
    apply sum_congr rfl
    intro l hl
    rw [he i l hi (by simpa using hl), he j l hj (by simpa using hl)]

end Verif
