import Verif.Model.Numeric
import Verif.Props.MinresCase
/-
C91: the numerical utilities of the Krylov package.
-/
set_option autoImplicit false
namespace Verif
open Matrix
variable {α : Type} [Field α] [LinearOrder α] [IsStrictOrderedRing α] {n : Nat}

/-! ### The roots of a quadratic -/

theorem newtonRefine_fixed {a2 a1 a0 r : α} (h : a2 * r ^ 2 + a1 * r + a0 = 0) : ∀ k, newtonRefine a2 a1 a0 k r = r
  | 0 => rfl
  | k + 1 => by
    have e : newtonStep a2 a1 a0 r = r := by
      unfold newtonStep
      have hv : (a2 * r + a1) * r + a0 = 0 := by linear_combination h
      simp only [hv, zero_div, sub_zero, ite_self]
    unfold newtonRefine
    rw [e]
    exact newtonRefine_fixed h k

theorem map_newton_fixed {a2 a1 a0 : α} (k : Nat) : ∀ {rs : List α}, (∀ r ∈ rs, a2 * r ^ 2 + a1 * r + a0 = 0) → rs.map (newtonRefine a2 a1 a0 k) = rs
  | [], _ => rfl
  | r :: rs, h => by
    rw [List.map_cons, newtonRefine_fixed (h r List.mem_cons_self), map_newton_fixed k fun x hx => h x (List.mem_cons_of_mem _ hx)]

/-- **C91 (the roots are the roots).** Whatever `roots_quadratic` returns for a polynomial of degree at most two which is not zero everywhere, and which is not
ill-conditioned by its own tolerance: a number is in the list exactly when it is a root (so the list is empty exactly when there is no root), for all coefficients,
tolerances and numbers of Newton iterations. -/
theorem C91_roots {sqrt : α → Py α} (hs : IsSqrt sqrt) {a2 a1 a0 tol : α} {nitref : Nat} {rs : List α}
    (h : rootsQuadratic sqrt a2 a1 a0 tol nitref = .ok rs) (hne : ¬ (a2 = 0 ∧ a1 = 0 ∧ a0 = 0)) (hc : a2 = 0 ∨ tol * a1 ^ 2 < |a0 * a2|) (x : α) :
    x ∈ rs ↔ a2 * x ^ 2 + a1 * x + a0 = 0 := by
  unfold rootsQuadratic at h
  simp only at h
  by_cases h2 : a2 = 0
  · rw [if_pos h2] at h
    by_cases h1 : a1 = 0
    · rw [if_pos h1] at h
      have h0 : a0 ≠ 0 := fun e => hne ⟨h2, h1, e⟩
      rw [if_neg h0] at h
      cases h
      simp [h2, h1, h0]
    · rw [if_neg h1] at h
      have hr : a2 * (-a0 / a1) ^ 2 + a1 * (-a0 / a1) + a0 = 0 := by rw [h2]; field_simp; ring
      cases h
      rw [map_newton_fixed nitref (by intro r hr'; rw [List.mem_singleton] at hr'; rw [hr']; exact hr), List.mem_singleton]
      refine ⟨fun e => by rw [e]; exact hr, fun e => ?_⟩
      rw [h2] at e
      field_simp
      linear_combination e
  · rw [if_neg h2] at h
    have hc' : tol * a1 * a1 < |a0 * a2| := by
      rcases hc with e | e
      · exact absurd e h2
      · calc tol * a1 * a1 = tol * a1 ^ 2 := by ring
          _ < _ := e
    rw [if_pos hc'] at h
    by_cases hrho : a1 * a1 - 4 * a2 * a0 < 0
    · rw [if_pos hrho] at h
      cases h
      simp only [List.not_mem_nil, false_iff]
      intro e
      have : a1 * a1 - 4 * a2 * a0 = (2 * a2 * x + a1) ^ 2 := by linear_combination -4 * a2 * e
      have := sq_nonneg (2 * a2 * x + a1)
      linarith
    · rw [if_neg hrho] at h
      obtain ⟨s, hs1, h⟩ := bind_ok.1 h
      obtain ⟨hs0, hss⟩ := hs _ _ hs1
      obtain ⟨σ, hσ⟩ : ∃ σ, σ = if a1 < 0 then -s else s := ⟨_, rfl⟩
      rw [← hσ] at h
      have hσ2 : σ * σ = a1 * a1 - 4 * a2 * a0 := by
        rw [hσ]; split_ifs <;> linear_combination hss
      by_cases hd : -(1 / 2) * (a1 + σ) = 0
      · rw [if_pos hd] at h; cases h
      · rw [if_neg hd] at h
        obtain ⟨d, hdd⟩ : ∃ d, d = -(1 / 2) * (a1 + σ) := ⟨_, rfl⟩
        rw [← hdd] at h hd
        have hσd : σ = -2 * d - a1 := by rw [hdd]; ring
        have hdq : d * d + a1 * d + a2 * a0 = 0 := by
          rw [hσd] at hσ2
          linear_combination (1 / 4) * hσ2
        have r1 : a2 * (d / a2) ^ 2 + a1 * (d / a2) + a0 = 0 := by
          field_simp
          linear_combination hdq
        have r2 : a2 * (a0 / d) ^ 2 + a1 * (a0 / d) + a0 = 0 := by
          field_simp
          linear_combination a0 * hdq
        have hm : ∀ r ∈ [d / a2, a0 / d], a2 * r ^ 2 + a1 * r + a0 = 0 := by
          intro r hr
          simp only [List.mem_cons, List.not_mem_nil, or_false] at hr
          rcases hr with e | e <;> rw [e] <;> assumption
        rw [pure_ok, map_newton_fixed nitref hm] at h
        rw [← h]
        refine ⟨fun e => hm x e, fun e => ?_⟩
        have hp : (a2 * x - d) * (d * x - a0) = 0 := by linear_combination d * e - x * hdq
        simp only [List.mem_cons, List.not_mem_nil, or_false]
        rcases mul_eq_zero.1 hp with e' | e'
        · left; field_simp; linear_combination e'
        · right; field_simp; linear_combination e'

/-- **C91 (the roots are returned).** Over the real numbers `roots_quadratic` returns for all coefficients, tolerances and numbers of Newton iterations (it never
divides by zero, nor takes the root of a negative number). -/
theorem C91_roots_returns (a2 a1 a0 tol : ℝ) (nitref : Nat) : ∃ rs, rootsQuadratic realSqrt a2 a1 a0 tol nitref = .ok rs := by
  unfold rootsQuadratic
  simp only
  by_cases h2 : a2 = 0
  · rw [if_pos h2]; split_ifs <;> exact ⟨_, rfl⟩
  rw [if_neg h2]
  by_cases hc : tol * a1 * a1 < |a0 * a2|
  swap
  · rw [if_neg hc]; exact ⟨_, rfl⟩
  rw [if_pos hc]
  by_cases hrho : a1 * a1 - 4 * a2 * a0 < 0
  · rw [if_pos hrho]; exact ⟨_, rfl⟩
  · rw [if_neg hrho]
    obtain ⟨s, hs⟩ : ∃ s, realSqrt (a1 * a1 - 4 * a2 * a0) = .ok s := by unfold realSqrt; rw [if_neg hrho]; exact ⟨_, rfl⟩
    obtain ⟨hs0, hss⟩ := realSqrt_spec _ _ hs
    have hd : ¬ -(1 / 2) * (a1 + if a1 < 0 then -s else s) = 0 := by
      intro e
      have e' : a1 + (if a1 < 0 then -s else s) = 0 := by linarith
      by_cases hneg : a1 < 0
      · rw [if_pos hneg] at e'; linarith
      · rw [if_neg hneg] at e'
        have ha : a1 = 0 := by linarith
        have hz : s = 0 := by linarith
        rw [ha, hz] at hss
        have : a0 * a2 = 0 := by linarith
        rw [ha, this] at hc
        simp at hc
    rw [hs]
    refine ⟨_, (if_neg hd : _ = pure _)⟩

theorem newton_val {a2 a1 a0 r : α} (hd : 2 * a2 * r + a1 ≠ 0) :
    a2 * (newtonStep a2 a1 a0 r) ^ 2 + a1 * newtonStep a2 a1 a0 r + a0 = a2 * (a2 * r ^ 2 + a1 * r + a0) ^ 2 / (2 * a2 * r + a1) ^ 2 := by
  unfold newtonStep
  simp only [if_neg hd]
  obtain ⟨d, hdd⟩ : ∃ d, d = 2 * a2 * r + a1 := ⟨_, rfl⟩
  rw [← hdd] at hd ⊢
  have h1 : a1 = d - 2 * a2 * r := by rw [hdd]; ring
  rw [h1]
  field_simp
  ring

/-- In the ill-conditioned case Newton's iterations do not increase the value of the polynomial. -/
theorem newton_small {a2 a1 a0 tol : α} (h1 : a1 ≠ 0) (ht : 0 ≤ tol) (ht8 : tol ≤ 1 / 8) (hc : |a0 * a2| ≤ tol * a1 ^ 2) :
    ∀ (k : Nat) (r : α), |a2 * r ^ 2 + a1 * r + a0| ≤ tol * |a0| →
      |a2 * (newtonRefine a2 a1 a0 k r) ^ 2 + a1 * newtonRefine a2 a1 a0 k r + a0| ≤ tol * |a0|
  | 0, _, h => h
  | k + 1, r, h => by
    unfold newtonRefine
    refine newton_small h1 ht ht8 hc k _ ?_
    by_cases hd : 2 * a2 * r + a1 = 0
    · have e : newtonStep a2 a1 a0 r = r := by unfold newtonStep; simp only [if_pos hd]
      rw [e]; exact h
    · rw [newton_val hd]
      obtain ⟨q, hq⟩ : ∃ q, q = a2 * r ^ 2 + a1 * r + a0 := ⟨_, rfl⟩
      rw [← hq] at h ⊢
      have hp : 0 < a1 ^ 2 := by positivity
      have haq : |a2 * q| ≤ (1 / 64) * a1 ^ 2 := by
        rw [abs_mul]
        calc |a2| * |q| ≤ |a2| * (tol * |a0|) := mul_le_mul_of_nonneg_left h (abs_nonneg _)
          _ = tol * |a0 * a2| := by rw [abs_mul]; ring
          _ ≤ tol * (tol * a1 ^ 2) := mul_le_mul_of_nonneg_left hc ht
          _ ≤ (1 / 8) * ((1 / 8) * a1 ^ 2) := by
            have h2 : tol * a1 ^ 2 ≤ 1 / 8 * a1 ^ 2 := mul_le_mul_of_nonneg_right ht8 hp.le
            exact mul_le_mul ht8 h2 (mul_nonneg ht hp.le) (by norm_num)
          _ = _ := by ring
      have hac : |a0 * a2| ≤ 1 / 8 * a1 ^ 2 := hc.trans (mul_le_mul_of_nonneg_right ht8 hp.le)
      have hder : (2 * a2 * r + a1) ^ 2 = a1 ^ 2 - 4 * (a0 * a2) + 4 * (a2 * q) := by rw [hq]; ring
      have hge : (1 / 64) * a1 ^ 2 ≤ (2 * a2 * r + a1) ^ 2 := by
        rw [hder]
        have := neg_abs_le (a2 * q)
        have := le_abs_self (a0 * a2)
        linarith
      have hpos : 0 < (2 * a2 * r + a1) ^ 2 := by positivity
      rw [abs_div, abs_of_pos hpos, div_le_iff₀ hpos]
      calc |a2 * q ^ 2| = |a2 * q| * |q| := by rw [← abs_mul]; ring_nf
        _ ≤ (2 * a2 * r + a1) ^ 2 * (tol * |a0|) := mul_le_mul (haq.trans hge) h (abs_nonneg _) hpos.le
        _ = _ := by ring

/-- **C91 (ill-conditioned quadratics).** For a quadratic which is ill-conditioned by the tolerance (at most an eighth), every number returned is an exact root of a
quadratic whose constant term differs from the given one by no more than the tolerance allows, relative to it; with the Newton iteration done by default or with more. -/
theorem C91_ill_conditioned {sqrt : α → Py α} {a2 a1 a0 tol : α} {nitref : Nat} {rs : List α} (h : rootsQuadratic sqrt a2 a1 a0 tol (nitref + 1) = .ok rs)
    (h2 : a2 ≠ 0) (ht : 0 ≤ tol) (ht8 : tol ≤ 1 / 8) (hc : |a0 * a2| ≤ tol * a1 ^ 2) {r : α} (hr : r ∈ rs) :
    ∃ b0, |b0 - a0| ≤ tol * |a0| ∧ a2 * r ^ 2 + a1 * r + b0 = 0 := by
  suffices hv : |a2 * r ^ 2 + a1 * r + a0| ≤ tol * |a0| by
    refine ⟨a0 - (a2 * r ^ 2 + a1 * r + a0), ?_, by ring⟩
    rw [show a0 - (a2 * r ^ 2 + a1 * r + a0) - a0 = -(a2 * r ^ 2 + a1 * r + a0) by ring, abs_neg]
    exact hv
  unfold rootsQuadratic at h
  simp only [if_neg h2] at h
  have hn : ¬ tol * a1 * a1 < |a0 * a2| := by rw [not_lt]; calc |a0 * a2| ≤ tol * a1 ^ 2 := hc
                                                          _ = _ := by ring
  rw [if_neg hn] at h
  cases h
  simp only [List.map_cons, List.map_nil, List.mem_cons, List.not_mem_nil, or_false] at hr
  by_cases h1 : a1 = 0
  · rw [h1] at hc
    have h0 : a0 = 0 := by
      have h3 : |a0 * a2| ≤ 0 := by simpa using hc
      rcases mul_eq_zero.1 (abs_nonpos_iff.1 h3) with e | e
      · exact e
      · exact absurd e h2
    have hr0 : r = 0 := by
      have f : newtonRefine a2 a1 a0 (nitref + 1) 0 = 0 := newtonRefine_fixed (by rw [h0]; ring) _
      rcases hr with e | e
      · rw [e]
        rw [show -a1 / a2 = 0 by rw [h1]; simp]
        exact f
      · rw [e]; exact f
    rw [hr0, h0]
    simp
  · have hp : 0 < a1 ^ 2 := by positivity
    have key : ∀ y : α, a2 * y ^ 2 + a1 * y = 0 → (2 * a2 * y + a1) ^ 2 = a1 ^ 2 →
        |a2 * (newtonRefine a2 a1 a0 (nitref + 1) y) ^ 2 + a1 * newtonRefine a2 a1 a0 (nitref + 1) y + a0| ≤ tol * |a0| := by
      intro y hy hder
      unfold newtonRefine
      refine newton_small h1 ht ht8 hc nitref _ ?_
      have hd : 2 * a2 * y + a1 ≠ 0 := by
        intro e; rw [e] at hder; simp at hder; exact h1 (by simpa using hder.symm)
      rw [newton_val hd, hy, zero_add, hder, abs_div, abs_of_pos hp, div_le_iff₀ hp]
      calc |a2 * a0 ^ 2| = |a0 * a2| * |a0| := by rw [← abs_mul]; ring_nf
        _ ≤ (tol * a1 ^ 2) * |a0| := mul_le_mul_of_nonneg_right hc (abs_nonneg _)
        _ = _ := by ring
    rcases hr with e | e
    · rw [e]
      exact key _ (by field_simp; ring) (by field_simp; ring)
    · rw [e]
      exact key _ (by ring) (by ring)

/-! ### The check for definite operators -/

theorem checkPositiveDefinite_square {A : (Fin n → α) → Py (Fin n → α)} {semi : Bool} {probes : List (Fin n → α)} :
    checkPositiveDefinite A semi probes = checkPositiveDefinite.go semi A probes := by
  unfold checkPositiveDefinite
  rw [dif_pos rfl]
  congr 1
  funext v
  cases h : A v <;> rfl

/-- **C91 (definite operators pass).** The check returns `True` for every positive definite matrix, whatever the random vectors, as long as none is zero; with `semi`,
for every positive semidefinite matrix and all vectors. -/
theorem C91_definite_pass {M : Matrix (Fin n) (Fin n) α} {A : (Fin n → α) → Py (Fin n → α)} (hA : ∀ v, A v = .ok (M *ᵥ v)) {semi : Bool}
    (h : (∀ v, v ≠ 0 → 0 < v ⬝ᵥ M *ᵥ v) ∨ (semi = true ∧ ∀ v, 0 ≤ v ⬝ᵥ M *ᵥ v)) {probes : List (Fin n → α)} (hp : ∀ v ∈ probes, v ≠ 0) :
    checkPositiveDefinite A semi probes = .ok true := by
  rw [checkPositiveDefinite_square]
  induction probes with
  | nil => rfl
  | cons v probes ih =>
    have ih := ih fun w hw => hp w (List.mem_cons_of_mem _ hw)
    unfold checkPositiveDefinite.go
    refine bind_ok.2 ⟨_, hA v, ?_⟩
    have h0 : 0 ≤ v ⬝ᵥ M *ᵥ v := by
      rcases h with h | h
      · exact (h v (hp v List.mem_cons_self)).le
      · exact h.2 v
    cases semi with
    | true => simp only [if_true, if_neg (not_lt.2 h0)]; exact ih
    | false =>
      have h1 : ¬ v ⬝ᵥ M *ᵥ v ≤ 0 := by
        rcases h with h | h
        · exact not_le.2 (h v (hp v List.mem_cons_self))
        · exact absurd h.1 (by simp)
      simp only [Bool.false_eq_true, if_false, if_neg h1]
      exact ih

/-- **C91 (what `False` and `True` mean).** The check returns `False` exactly when one of its vectors shows that the matrix is not definite (not semidefinite with
`semi`), and `True` exactly when none does. -/
theorem C91_definite_answer {M : Matrix (Fin n) (Fin n) α} {A : (Fin n → α) → Py (Fin n → α)} (hA : ∀ v, A v = .ok (M *ᵥ v)) (semi : Bool) :
    ∀ probes : List (Fin n → α), ∃ b, checkPositiveDefinite A semi probes = .ok b ∧
      (b = false ↔ ∃ v ∈ probes, if semi then v ⬝ᵥ M *ᵥ v < 0 else v ⬝ᵥ M *ᵥ v ≤ 0) := by
  intro probes
  rw [checkPositiveDefinite_square]
  induction probes with
  | nil => exact ⟨true, rfl, by simp⟩
  | cons v probes ih =>
    obtain ⟨b, hb, hi⟩ := ih
    unfold checkPositiveDefinite.go
    by_cases hv : if semi then v ⬝ᵥ M *ᵥ v < 0 else v ⬝ᵥ M *ᵥ v ≤ 0
    · refine ⟨false, bind_ok.2 ⟨_, hA v, ?_⟩, by simp only [true_iff]; exact ⟨v, List.mem_cons_self, hv⟩⟩
      cases semi with
      | true => simp only [if_true] at hv; simp only [if_true, if_pos hv]; rfl
      | false => simp only [Bool.false_eq_true, if_false] at hv; simp only [Bool.false_eq_true, if_false, if_pos hv]; rfl
    · refine ⟨b, bind_ok.2 ⟨_, hA v, ?_⟩, ?_⟩
      · cases semi with
        | true => simp only [if_true] at hv; simp only [if_true, if_neg hv]; exact hb
        | false => simp only [Bool.false_eq_true, if_false] at hv; simp only [Bool.false_eq_true, if_false, if_neg hv]; exact hb
      · rw [hi]
        constructor
        · rintro ⟨w, hw, e⟩; exact ⟨w, List.mem_cons_of_mem _ hw, e⟩
        · rintro ⟨w, hw, e⟩
          rcases List.mem_cons.1 hw with e' | e'
          · rw [e'] at e; exact absurd e hv
          · exact ⟨w, e', e⟩

/-- **C91 (operators which are not square).** For an operator which is not square the answer is `False`. -/
theorem C91_not_square {m : Nat} (hm : m ≠ n) (A : (Fin n → α) → Py (Fin m → α)) (semi : Bool) (probes : List (Fin n → α)) :
    checkPositiveDefinite A semi probes = .ok false := by
  unfold checkPositiveDefinite
  rw [dif_neg hm]

/-- **C91 (the symmetry check passes symmetric operators).** -/
theorem C91_symmetric_pass {M : Matrix (Fin n) (Fin n) α} (hM : M.IsSymm) {opts : MinresOpts α} (heps : 0 ≤ opts.eps) (hc : 0 ≤ opts.cubeRootEps)
    {A : (Fin n → α) → Py (Fin n → α)} (hA : ∀ v, A v = .ok (M *ᵥ v)) (probes : List (Fin n → α)) : checkSymmetric opts A probes = .ok true :=
  checkSymmetric_symm hM heps hc hA probes

/-! ### Failures -/

/-- **C91 is false of the code (every number is a root).** For the polynomial which is zero everywhere `[0]` is returned, though every number is a root. -/
theorem C91_zero_polynomial (sqrt : α → Py α) (tol : α) (nitref : Nat) :
    rootsQuadratic sqrt 0 0 0 tol nitref = .ok [0] ∧ ∀ x : α, 0 * x ^ 2 + 0 * x + 0 = 0 :=
  ⟨by simp [rootsQuadratic], fun x => by ring⟩

/-- **C91 is false of the code (numbers which are no roots).** For an ill-conditioned quadratic with a constant term, neither number returned by default is a root. -/
theorem C91_not_roots {sqrt : α → Py α} {a2 a1 a0 tol : α} {rs : List α} (h : rootsQuadratic sqrt a2 a1 a0 tol 1 = .ok rs)
    (h2 : a2 ≠ 0) (h0 : a0 ≠ 0) (hc : |a0 * a2| ≤ tol * a1 ^ 2) {r : α} (hr : r ∈ rs) : a2 * r ^ 2 + a1 * r + a0 ≠ 0 := by
  have h1 : a1 ≠ 0 := by
    intro e
    rw [e] at hc
    have h3 : |a0 * a2| ≤ 0 := by simpa using hc
    rcases mul_eq_zero.1 (abs_nonpos_iff.1 h3) with e | e
    · exact h0 e
    · exact h2 e
  unfold rootsQuadratic at h
  simp only [if_neg h2] at h
  have hn : ¬ tol * a1 * a1 < |a0 * a2| := by rw [not_lt]; calc |a0 * a2| ≤ tol * a1 ^ 2 := hc
                                                          _ = _ := by ring
  rw [if_neg hn] at h
  cases h
  have key : ∀ y : α, a2 * y ^ 2 + a1 * y = 0 → (2 * a2 * y + a1) ^ 2 = a1 ^ 2 →
      a2 * (newtonRefine a2 a1 a0 1 y) ^ 2 + a1 * newtonRefine a2 a1 a0 1 y + a0 ≠ 0 := by
    intro y hy hder
    have hd : 2 * a2 * y + a1 ≠ 0 := by
      intro e; rw [e] at hder; simp at hder; exact h1 (by simpa using hder.symm)
    show a2 * (newtonStep a2 a1 a0 y) ^ 2 + a1 * newtonStep a2 a1 a0 y + a0 ≠ 0
    rw [newton_val hd, hy, zero_add]
    exact div_ne_zero (mul_ne_zero h2 (pow_ne_zero _ h0)) (pow_ne_zero _ hd)
  simp only [List.map_cons, List.map_nil, List.mem_cons, List.not_mem_nil, or_false] at hr
  rcases hr with e | e
  · rw [e]
    exact key _ (by field_simp; ring) (by field_simp; ring)
  · rw [e]
    exact key _ (by ring) (by ring)

/-- **C91 is false of the code (indefinite operators pass).** For the matrix which swaps two numbers the check answers `True` for all vectors of positive numbers
(the random numbers are between 0 and 1), though it is not even semidefinite. -/
theorem C91_indefinite_passes {A : (Fin 2 → α) → Py (Fin 2 → α)} (hA : ∀ v, A v = .ok (!![0, 1; 1, 0] *ᵥ v)) (semi : Bool) {probes : List (Fin 2 → α)}
    (hp : ∀ v ∈ probes, ∀ i, 0 < v i) :
    checkPositiveDefinite A semi probes = .ok true ∧ ∃ v : Fin 2 → α, v ⬝ᵥ !![0, 1; 1, 0] *ᵥ v < 0 := by
  have e : ∀ v : Fin 2 → α, v ⬝ᵥ !![0, 1; 1, 0] *ᵥ v = 2 * (v 0 * v 1) := by
    intro v
    simp [dotProduct, Matrix.mulVec, Fin.sum_univ_two]
    ring
  refine ⟨?_, ⟨![1, -1], by rw [e]; simp⟩⟩
  obtain ⟨b, hb, hi⟩ := C91_definite_answer hA semi probes
  cases b with
  | true => exact hb
  | false =>
    obtain ⟨v, hv, h⟩ := hi.1 rfl
    have hpos : 0 < v ⬝ᵥ !![0, 1; 1, 0] *ᵥ v := by rw [e]; exact mul_pos two_pos (mul_pos (hp v hv 0) (hp v hv 1))
    split_ifs at h
    · exact absurd h hpos.le.not_gt
    · exact absurd h hpos.not_ge

/-- **C91 is false of the code (operators which are not symmetric pass).** The symmetry check is absolute for small operators: a matrix which is not symmetric passes
for all vectors with numbers between 0 and 1, as soon as its elements are small (`t² ≤ eps^(4/3)`). -/
theorem C91_unsymmetric_passes {opts : MinresOpts α} (hc : 0 ≤ opts.cubeRootEps) (heps : 0 ≤ opts.eps) {t : α} (ht0 : t ≠ 0)
    (ht : t * t ≤ opts.eps * opts.cubeRootEps) {A : (Fin 2 → α) → Py (Fin 2 → α)} (hA : ∀ v, A v = .ok (!![0, t; 0, 0] *ᵥ v)) :
    ∀ {probes : List (Fin 2 → α)}, (∀ v ∈ probes, ∀ i, 0 ≤ v i ∧ v i ≤ 1) →
      checkSymmetric opts A probes = .ok true ∧ ¬ (!![0, t; 0, 0] : Matrix (Fin 2) (Fin 2) α).IsSymm
  | probes, hp => by
    refine ⟨?_, ?_⟩
    · induction probes with
      | nil => rfl
      | cons x probes ih =>
        have ih := ih fun v hv => hp v (List.mem_cons_of_mem _ hv)
        unfold checkSymmetric
        refine bind_ok.2 ⟨_, hA _, bind_ok.2 ⟨_, hA _, ?_⟩⟩
        have e1 : (!![0, t; 0, 0] *ᵥ x : Fin 2 → α) = ![t * x 1, 0] := by
          ext i; fin_cases i <;> simp [Matrix.mulVec, dotProduct, Fin.sum_univ_two]
        have e2 : (!![0, t; 0, 0] *ᵥ ![t * x 1, 0] : Fin 2 → α) = 0 := by
          ext i; fin_cases i <;> simp [Matrix.mulVec, dotProduct, Fin.sum_univ_two]
        rw [e1, e2]
        have e3 : (![t * x 1, 0] : Fin 2 → α) ⬝ᵥ ![t * x 1, 0] = (t * x 1) * (t * x 1) := by simp [dotProduct, Fin.sum_univ_two]
        simp only [e3, dotProduct_zero, sub_zero]
        obtain ⟨hx0, hx1⟩ := hp x List.mem_cons_self 1
        have hs0 : 0 ≤ (t * x 1) * (t * x 1) := mul_self_nonneg _
        have hs : (t * x 1) * (t * x 1) ≤ t * t := by
          calc (t * x 1) * (t * x 1) = (t * t) * (x 1 * x 1) := by ring
            _ ≤ (t * t) * 1 := mul_le_mul_of_nonneg_left (mul_le_one₀ hx1 hx0 hx1) (mul_self_nonneg t)
            _ = _ := mul_one _
        have hn : ¬ ((t * x 1) * (t * x 1) + opts.eps) * opts.cubeRootEps < |(t * x 1) * (t * x 1)| := by
          rw [not_lt, abs_of_nonneg hs0]
          have : 0 ≤ (t * x 1) * (t * x 1) * opts.cubeRootEps := mul_nonneg hs0 hc
          linarith [add_mul ((t * x 1) * (t * x 1)) opts.eps opts.cubeRootEps]
        simp only [if_neg hn]
        exact ih
    · intro h
      have := h.apply 0 1
      simp at this
      exact ht0 this.symm

/-! ### Concrete cases -/

/-- The quadratic `2 x² - 6 x + 4` has the roots 2 and 1, whatever the number of Newton iterations. -/
example : rootsQuadratic Fixture.ratSqrt 2 (-6) 4 (1 / 100000000) 1 = .ok [2, 1] := by decide +kernel
example : rootsQuadratic Fixture.ratSqrt 1 0 1 (1 / 100000000) 1 = .ok [] := by decide +kernel
example : rootsQuadratic Fixture.ratSqrt 0 3 6 (1 / 100000000) 1 = .ok [-2] := by decide +kernel

/-- An ill-conditioned quadratic which meets the hypotheses of `C91_ill_conditioned` and `C91_not_roots`. -/
example : (∃ rs, rootsQuadratic Fixture.ratSqrt 1 1 (1 / 1000000000) (1 / 100000000) 1 = .ok rs ∧ rs ≠ []) ∧
    |(1 / 1000000000 : ℚ) * 1| ≤ 1 / 100000000 * 1 ^ 2 :=
  ⟨⟨[-1 + 1 / 1000000000, -1 / 1000000000], by decide +kernel, by simp⟩, by decide +kernel⟩

/-- Definite, semidefinite and indefinite matrices. -/
example : checkPositiveDefinite (fun v : Fin 2 → ℚ => .ok (!![2, 1; 1, 2] *ᵥ v)) false [![1 / 2, 1 / 3]] = .ok true ∧
    checkPositiveDefinite (fun v : Fin 2 → ℚ => .ok (!![1, -1; -1, 1] *ᵥ v)) false [![1, 1]] = .ok false ∧
    checkPositiveDefinite (fun v : Fin 2 → ℚ => .ok (!![1, -1; -1, 1] *ᵥ v)) true [![1, 1]] = .ok true := by decide +kernel

end Verif
