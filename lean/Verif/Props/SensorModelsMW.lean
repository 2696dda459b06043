import Verif.Props.SensorModelsT
/-
Property C49: the microwave sensor model.
-/
set_option autoImplicit false
namespace Verif
variable {δ : Type}

/-- Covariate `j` moved by `t`. -/
def bump (x : Nat → ℝ) (j : Nat) (t : ℝ) : Nat → ℝ := fun i => if i = j then x i + t else x i

theorem line1 (u : ℝ) : HasDerivAt (fun t : ℝ => u + t) 1 0 := by
  simpa using line_deriv u 1

/-- **C49, parts that hold**: for every state and every parameter the derivative with respect to the second parameter, and to the (unused) temperature of the local
oscillator, is right. -/
theorem C49_second_parameter_partial (k : MwConst) (x p : Nat → ℝ) :
    HasDerivAt (fun t => k.value x (bump p 1 t)) ((k.derivs x p).getD 10 0) 0 ∧ HasDerivAt (fun t => k.value (bump x 8 t) p) ((k.derivs x p).getD 8 0) 0 := by
  constructor
  · have hal : ∀ t, k.value x (bump p 1 t) = k.value x p + t * (k.rj * (1.0 / (2.0 * k.g) * (k.lict x - k.lmePrime x p) * k.cosangs)) := by
      intro t
      have h1 : k.lmePrime x (bump p 1 t) = k.lmePrime x p := rfl
      unfold MwConst.value
      rw [h1]
      have hb : bump p 1 t 1 = p 1 + t := rfl
      have e1 : (1.0 : ℝ) = 1 := by norm_num
      have e2 : (2.0 : ℝ) = 2 := by norm_num
      have e5 : (0.5 : ℝ) = 1 / 2 := by norm_num
      rw [hb, e1, e2, e5]
      simp only [one_div, mul_inv]
      ring
    rw [funext hal]
    exact line_deriv _ _
  · have hal : ∀ t, k.value (bump x 8 t) p = k.value x p := fun t => rfl
    rw [funext hal]
    have : (k.derivs x p).getD 8 0 = 0 := by simp [MwConst.derivs]
    rw [this]
    exact hasDerivAt_const _ _

/-- The measurand at the start values of the parameters (all zero). -/
theorem mw_value_start (k : MwConst) (x : Nat → ℝ) : k.value x (fun _ => 0) =
    k.rj * (1 / k.g * (k.lict x + (k.lict x - k.lcmb) / (x 1 - x 0) * (x 7 - x 1) - (1 - k.g) * k.lcmb)) := by
  have e1 : (1.0 : ℝ) = 1 := by norm_num
  have hl : k.ls 0 = k.lcmb := by unfold MwConst.ls MwConst.lcmb; rw [add_zero]
  unfold MwConst.value MwConst.lmePrime
  rw [e1, hl]
  ring

/-- **C49, parts that hold at the start values of the parameters**: space count and first parameter. -/
theorem C49_start_partial (k : MwConst) {x : Nat → ℝ} (h : x 1 ≠ x 0) :
    HasDerivAt (fun t => k.value (bump x 0 t) fun _ => 0) ((k.derivs x fun _ => 0).getD 0 0) 0 ∧
    HasDerivAt (fun t => k.value x (bump (fun _ => 0) 0 t)) ((k.derivs x fun _ => 0).getD 9 0) 0 := by
  have hd : x 1 - x 0 ≠ 0 := sub_ne_zero.2 h
  have e1 : (1.0 : ℝ) = 1 := by norm_num
  have hl : k.ls 0 = k.lcmb := by unfold MwConst.ls MwConst.lcmb; rw [add_zero]
  constructor
  · have hal : ∀ t, k.value (bump x 0 t) (fun _ => 0) =
        k.rj * (1 / k.g * (k.lict x + (k.lict x - k.lcmb) / (x 1 - (x 0 + t)) * (x 7 - x 1) - (1 - k.g) * k.lcmb)) := fun t => mw_value_start k (bump x 0 t)
    rw [funext hal]
    refine (((((((hasDerivAt_const (0 : ℝ) (k.lict x - k.lcmb)).fun_div ((line1 (x 0)).const_sub (x 1)) (by simpa using hd)).mul_const (x 7 - x 1)).const_add (k.lict x)).sub_const _).const_mul
      (1 / k.g)).const_mul k.rj).congr_deriv ?_
    simp only [add_zero, MwConst.derivs, List.map_cons, List.getD_cons_zero, List.getD_cons_succ, e1, hl]
    field_simp
    ring
  · have hal : ∀ t, k.value x (bump (fun _ => 0) 0 t) = k.value x (fun _ => 0) + t * (k.rj * (1 / k.g * (x 7 - x 0) * (x 7 - x 1) * (k.lict x - k.lcmb) ^ 2 / (x 1 - x 0) ^ 2)) := by
      intro t
      rw [mw_value_start]
      have hb : ∀ j, bump (fun _ => (0 : ℝ)) 0 t j = if j = 0 then t else 0 := by intro j; simp [bump]
      unfold MwConst.value MwConst.lmePrime
      simp only [hb, e1]
      simp only [↓reduceIte, one_ne_zero, OfNat.ofNat_ne_zero, hl]
      field_simp
      ring
    rw [funext hal]
    have : (k.derivs x fun _ => 0).getD 9 0 = k.rj * (1 / k.g * (x 7 - x 0) * (x 7 - x 1) * (k.lict x - k.lcmb) ^ 2 / (x 1 - x 0) ^ 2) := by
      simp only [MwConst.derivs, List.map_cons, List.getD_cons_zero, List.getD_cons_succ, e1, hl]
    rw [this]
    exact line_deriv _ _

/-- **C49 is false of the code**: at the start values of the parameters, for every state, the derivative returned for the calibration count has the wrong sign, the one
for the Earth count is multiplied by `2 C_E - C_ICT - C_S`, and those for the five temperatures are twice what they should be. -/
theorem C49_start_fails (k : MwConst) {x : Nat → ℝ} (h : x 1 ≠ x 0) :
    HasDerivAt (fun t => k.value (bump x 1 t) fun _ => 0) (-((k.derivs x fun _ => 0).getD 1 0)) 0 ∧
    (∃ d, HasDerivAt (fun t => k.value (bump x 7 t) fun _ => 0) d 0 ∧ (k.derivs x fun _ => 0).getD 7 0 = (2 * x 7 - x 1 - x 0) * d) ∧
    (k.a + k.b * (k.tict x + k.dTw) ≠ 0 → Real.exp (k.v * planckH / (boltzK * (k.a + k.b * (k.tict x + k.dTw)))) ≠ 1 → k.wtot ≠ 0 →
      ∀ n, n < 5 → HasDerivAt (fun t => k.value (bump x (2 + n) t) fun _ => 0) ((k.derivs x fun _ => 0).getD (2 + n) 0 / 2) 0) := by
  have hd : x 1 - x 0 ≠ 0 := sub_ne_zero.2 h
  have e1 : (1.0 : ℝ) = 1 := by norm_num
  have hl : k.ls 0 = k.lcmb := by unfold MwConst.ls MwConst.lcmb; rw [add_zero]
  refine ⟨?_, ⟨k.rj * (1 / k.g * ((k.lict x - k.lcmb) / (x 1 - x 0))), ?_, ?_⟩, ?_⟩
  · have hal : ∀ t, k.value (bump x 1 t) (fun _ => 0) =
        k.rj * (1 / k.g * (k.lict x + (k.lict x - k.lcmb) / ((x 1 + t) - x 0) * (x 7 - (x 1 + t)) - (1 - k.g) * k.lcmb)) := fun t => mw_value_start k (bump x 1 t)
    rw [funext hal]
    refine (((((((hasDerivAt_const (0 : ℝ) (k.lict x - k.lcmb)).fun_div ((line1 (x 1)).sub_const (x 0)) (by simpa using hd)).fun_mul ((line1 (x 1)).const_sub (x 7))).const_add (k.lict x)).sub_const _).const_mul
      (1 / k.g)).const_mul k.rj).congr_deriv ?_
    simp only [add_zero, MwConst.derivs, List.map_cons, List.getD_cons_zero, List.getD_cons_succ, e1, hl]
    field_simp
    ring
  · have hal : ∀ t, k.value (bump x 7 t) (fun _ => 0) =
        k.rj * (1 / k.g * (k.lict x + (k.lict x - k.lcmb) / (x 1 - x 0) * ((x 7 + t) - x 1) - (1 - k.g) * k.lcmb)) := fun t => mw_value_start k (bump x 7 t)
    rw [funext hal]
    refine (((((((line1 (x 7)).sub_const (x 1)).const_mul ((k.lict x - k.lcmb) / (x 1 - x 0))).const_add (k.lict x)).sub_const _).const_mul
      (1 / k.g)).const_mul k.rj).congr_deriv ?_
    ring
  · simp only [MwConst.derivs, List.map_cons, List.getD_cons_zero, List.getD_cons_succ, e1, hl]
    ring
  · intro hT hE hw n hn
    have htict : ∀ t, k.tict (bump x (2 + n) t) = k.tict x + t * (k.w n / k.wtot) := by
      intro t
      unfold MwConst.tict
      rcases (by omega : n = 0 ∨ n = 1 ∨ n = 2 ∨ n = 3 ∨ n = 4) with rfl | rfl | rfl | rfl | rfl <;>
        · simp only [bump, Nat.reduceAdd, Nat.reduceEqDiff, ↓reduceIte]
          ring
    have hal : ∀ t, k.value (bump x (2 + n) t) (fun _ => 0) =
        k.rj * (1 / k.g * (planck k.v ((k.a + k.b * (k.tict x + k.dTw)) + t * (k.b * (k.w n / k.wtot))) +
          (planck k.v ((k.a + k.b * (k.tict x + k.dTw)) + t * (k.b * (k.w n / k.wtot))) - k.lcmb) * ((x 7 - x 1) / (x 1 - x 0)) - (1 - k.g) * k.lcmb)) := by
      intro t
      refine (mw_value_start k (bump x (2 + n) t)).trans ?_
      have hlict : k.lict (bump x (2 + n) t) = planck k.v ((k.a + k.b * (k.tict x + k.dTw)) + t * (k.b * (k.w n / k.wtot))) := by
        unfold MwConst.lict
        rw [htict]
        congr 1
        ring
      have hb : ∀ j, j = 0 ∨ j = 1 ∨ j = 7 → bump x (2 + n) t j = x j := by
        intro j hj
        unfold bump
        rw [if_neg (by omega)]
      rw [hlict, hb 0 (by simp), hb 1 (by simp), hb 7 (by simp)]
      ring
    rw [funext hal]
    have hp := planck_deriv (v := k.v) (k.b * (k.w n / k.wtot)) hT hE
    refine (((((hp.fun_add ((hp.sub_const k.lcmb).mul_const ((x 7 - x 1) / (x 1 - x 0)))).sub_const _).const_mul (1 / k.g))).const_mul k.rj).congr_deriv ?_
    have hget : (k.derivs x fun _ => 0).getD (2 + n) 0 = k.rj * (k.dT x (fun _ => 0) * k.w n / k.wtot) := by
      rcases (by omega : n = 0 ∨ n = 1 ∨ n = 2 ∨ n = 3 ∨ n = 4) with rfl | rfl | rfl | rfl | rfl <;> simp [MwConst.derivs]
    rw [hget]
    unfold MwConst.dT
    have hlict : k.lict x = planck k.v (k.a + k.b * (k.tict x + k.dTw)) := rfl
    rw [hlict, mul_comm planckH k.v, e1]
    have hE' := sub_ne_zero.2 hE
    have hk := boltzK_ne
    generalize Real.exp (k.v * planckH / (boltzK * (k.a + k.b * (k.tict x + k.dTw)))) = E at *
    generalize planck k.v (k.a + k.b * (k.tict x + k.dTw)) = P
    generalize k.a + k.b * (k.tict x + k.dTw) = W at *
    generalize k.tict x = Tt
    field_simp
    ring

/-- **C49 is false of the code**: the solver evaluates models without track indices, for which this model always fails. -/
theorem C49_without_index_fails (X : List (List ℝ)) (a c : List ℝ) (al : Option (List ℝ)) (t : Option (List δ)) :
    (mwModel : SensorModel ℝ δ) X a c none al t = .error .typeError := rfl

end Verif
