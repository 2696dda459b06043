import Verif.Props.SensorModels
/-
Properties C48 (HIRS) and C49 (microwave): sensor models with a Planck function.
-/
set_option autoImplicit false
namespace Verif
variable {δ : Type}

theorem boltzK_ne : boltzK ≠ 0 := by unfold boltzK; norm_num

/-- The Planck radiance along a line of temperatures. -/
theorem planck_deriv {v T : ℝ} (T' : ℝ) (hT : T ≠ 0) (he : Real.exp (v * planckH / (boltzK * T)) ≠ 1) :
    HasDerivAt (fun t : ℝ => planck v (T + t * T'))
      (planck v T * Real.exp (v * planckH / (boltzK * T)) / (Real.exp (v * planckH / (boltzK * T)) - 1) * (planckH * v * T') / (boltzK * T ^ 2)) 0 := by
  have hk := boltzK_ne
  have hz : boltzK * (T + 0 * T') ≠ 0 := by simp only [zero_mul, add_zero]; exact mul_ne_zero hk hT
  have h1 : HasDerivAt (fun t : ℝ => boltzK * (T + t * T')) (boltzK * T') 0 := (line_deriv T T').const_mul _
  have h2 : HasDerivAt (fun t : ℝ => v * planckH / (boltzK * (T + t * T'))) (-(planckH * v * T') / (boltzK * T ^ 2)) 0 := by
    refine ((hasDerivAt_const (0 : ℝ) (v * planckH)).fun_div h1 hz).congr_deriv ?_
    simp only [zero_mul, add_zero]
    field_simp
    ring
  have h3 := h2.exp
  simp only [zero_mul, add_zero] at h3
  have hE : Real.exp (v * planckH / (boltzK * (T + 0 * T'))) - 1 ≠ 0 := by simp only [zero_mul, add_zero]; exact sub_ne_zero.2 he
  unfold planck
  refine ((hasDerivAt_const (0 : ℝ) (2.0 * planckH * v ^ 3 / lightC ^ 2)).fun_div (h3.sub_const 1) hE).congr_deriv ?_
  simp only [zero_mul, add_zero]
  have hE' : Real.exp (v * planckH / (boltzK * T)) - 1 ≠ 0 := sub_ne_zero.2 he
  generalize Real.exp (v * planckH / (boltzK * T)) = E at *
  generalize 2.0 * planckH * v ^ 3 / lightC ^ 2 = P
  field_simp
  ring

/-! ### HIRS -/

theorem hirsRict_planck (c x : Nat → ℝ) : hirsRict c x = planck (c 0) (c 1 + c 2 * x 3) := rfl

theorem hirs_pointwise {c : List ℝ} (hc : c.length = 3) : (hirsModel : SensorModel ℝ δ).Pointwise 5 c 3 (hirs3 fun j => c.getD j 0).phi (hirs3 fun j => c.getD j 0).dphi := by
  intro X a xt al t k hX hk ha
  unfold hirsModel
  rw [if_neg (by omega)]
  exact (hirs3 fun j => c.getD j 0).pointwise rfl (by simp [hirs3]) c X a xt al t k hX hk ha

theorem hirsPhi (c : Nat → ℝ) (s i e T q a0 a1 a2 : ℝ) : (hirs3 c).phi [s, i, e, T, q] [a0, a1, a2] =
    a0 + (0.98 + a1) * (planck (c 0) (c 1 + c 2 * T) * (e - s) / (i - s)) + a2 * ((e - i) * (e - s)) - q := by
  simp only [RowFun.phi, hirs3, dotRow, hirsRict_planck, List.getD_cons_zero, List.getD_cons_succ, List.zipWith_cons_cons, List.zipWith_nil_left, List.sum_cons, List.sum_nil]
  ring

/-- The true derivative of the HIRS measurand along any direction; `D` is the declared temperature derivative. -/
theorem hirs_deriv (c : Nat → ℝ) {s i e T q a0 a1 a2 : ℝ} (hsi : i ≠ s) (hT : c 1 + c 2 * T ≠ 0)
    (hE : Real.exp (c 0 * planckH / (boltzK * (c 1 + c 2 * T))) ≠ 1) (s' i' e' T' q' b0 b1 b2 : ℝ) :
    HasDerivAt (fun t => (hirs3 c).phi (along [s, i, e, T, q] [s', i', e', T', q'] t) (along [a0, a1, a2] [b0, b1, b2] t))
      (((List.range 5).map fun j => (hirs3 c).dphi [s, i, e, T, q] [a0, a1, a2] j * ([s', i', e', T', q'] : List ℝ).getD j 0).sum +
        ((List.range 3).map fun j => (hirs3 c).dphi [s, i, e, T, q] [a0, a1, a2] (5 + j) * ([b0, b1, b2] : List ℝ).getD j 0).sum -
        (hirs3 c).dphi [s, i, e, T, q] [a0, a1, a2] 3 / 2 * T') 0 := by
  have hal : ∀ t, (hirs3 c).phi (along [s, i, e, T, q] [s', i', e', T', q'] t) (along [a0, a1, a2] [b0, b1, b2] t) =
      (a0 + t * b0) + ((0.98 + a1) + t * b1) * (planck (c 0) ((c 1 + c 2 * T) + t * (c 2 * T')) * ((e + t * e') - (s + t * s')) / ((i + t * i') - (s + t * s'))) +
        (a2 + t * b2) * (((e + t * e') - (i + t * i')) * ((e + t * e') - (s + t * s'))) - (q + t * q') := by
    intro t
    refine (hirsPhi _ _ _ _ _ _ _ _ _).trans ?_
    have : c 1 + c 2 * (T + t * T') = (c 1 + c 2 * T) + t * (c 2 * T') := by ring
    rw [this]
    ring
  rw [funext hal]
  have his : i - s ≠ 0 := sub_ne_zero.2 hsi
  have hk := boltzK_ne
  have hp := planck_deriv (v := c 0) (c 2 * T') hT hE
  have hden : (i + 0 * i') - (s + 0 * s') ≠ 0 := by simpa using his
  refine ((((line_deriv a0 b0).fun_add ((line_deriv (0.98 + a1) b1).fun_mul
    ((hp.fun_mul ((line_deriv e e').fun_sub (line_deriv s s'))).fun_div ((line_deriv i i').fun_sub (line_deriv s s')) hden))).fun_add
    ((line_deriv a2 b2).fun_mul (((line_deriv e e').fun_sub (line_deriv i i')).fun_mul ((line_deriv e e').fun_sub (line_deriv s s'))))).fun_sub (line_deriv q q')).congr_deriv ?_
  simp only [zero_mul, add_zero, RowFun.dphi, hirs3, hirsRict_planck, hirsExp, List.range_succ, List.range_zero, List.nil_append, List.cons_append,
    List.map_cons, List.map_nil, List.sum_cons, List.sum_nil, List.getD_cons_zero, List.getD_cons_succ, Nat.reduceAdd, zero_add]
  have hE' : Real.exp (c 0 * planckH / (boltzK * (c 1 + c 2 * T))) - 1 ≠ 0 := sub_ne_zero.2 hE
  have h10 : (1.0 : ℝ) = 1 := by norm_num
  have h20 : (2.0 : ℝ) = 2 := by norm_num
  rw [h10, h20]
  generalize Real.exp (c 0 * planckH / (boltzK * (c 1 + c 2 * T))) = E at *
  generalize planck (c 0) (c 1 + c 2 * T) = P
  generalize (0.98 : ℝ) + a1 = A
  generalize hW : c 1 + c 2 * T = W at *
  field_simp
  ring

/-- **C48** except for the temperature: the HIRS model works match-up by match-up, its measurand is the calibration equation, and the derivatives it returns are
right for all covariates but the temperature of the calibration target, and for all parameters. -/
theorem C48_not_temperature_partial {v ca cb : ℝ} : ∃ φ dφ, (hirsModel : SensorModel ℝ δ).Pointwise 5 [v, ca, cb] 3 φ dφ ∧
    (∀ s i e T q a0 a1 a2 : ℝ, φ [s, i, e, T, q] [a0, a1, a2] = a0 + (0.98 + a1) * (planck v (ca + cb * T) * (e - s) / (i - s)) + a2 * ((e - i) * (e - s)) - q) ∧
    ∀ s i e T q a0 a1 a2 s' i' e' q' b0 b1 b2 : ℝ, i ≠ s → ca + cb * T ≠ 0 → Real.exp (v * planckH / (boltzK * (ca + cb * T))) ≠ 1 →
      HasDerivAt (fun t => φ (along [s, i, e, T, q] [s', i', e', 0, q'] t) (along [a0, a1, a2] [b0, b1, b2] t))
        (((List.range 5).map fun j => dφ [s, i, e, T, q] [a0, a1, a2] j * ([s', i', e', 0, q'] : List ℝ).getD j 0).sum +
          ((List.range 3).map fun j => dφ [s, i, e, T, q] [a0, a1, a2] (5 + j) * ([b0, b1, b2] : List ℝ).getD j 0).sum) 0 := by
  refine ⟨_, _, hirs_pointwise rfl, fun s i e T q a0 a1 a2 => hirsPhi _ _ _ _ _ _ _ _ _, ?_⟩
  intro s i e T q a0 a1 a2 s' i' e' q' b0 b1 b2 h1 h2 h3
  refine (hirs_deriv (fun j => ([v, ca, cb] : List ℝ).getD j 0) h1 h2 h3 s' i' e' 0 q' b0 b1 b2).congr_deriv ?_
  rw [mul_zero, sub_zero]

/-- **C48 is false of the code** for the temperature of the calibration target: the derivative returned is twice the derivative of the measurand, and not zero
for a state with different Earth, space and calibration counts. -/
theorem C48_temperature_fails {v ca cb : ℝ} : ∃ φ dφ, (hirsModel : SensorModel ℝ δ).Pointwise 5 [v, ca, cb] 3 φ dφ ∧
    ∀ s i e T q a0 a1 a2 : ℝ, i ≠ s → ca + cb * T ≠ 0 → Real.exp (v * planckH / (boltzK * (ca + cb * T))) ≠ 1 →
      HasDerivAt (fun t => φ [s, i, e, T + t, q] [a0, a1, a2]) (dφ [s, i, e, T, q] [a0, a1, a2] 3 / 2) 0 ∧
      (e ≠ s → 0.98 + a1 ≠ 0 → cb ≠ 0 → dφ [s, i, e, T, q] [a0, a1, a2] 3 ≠ 0) := by
  refine ⟨_, _, hirs_pointwise rfl, fun s i e T q a0 a1 a2 h1 h2 h3 => ⟨?_, ?_⟩⟩
  · have h := hirs_deriv (fun j => ([v, ca, cb] : List ℝ).getD j 0) (q := q) (a0 := a0) (a1 := a1) (a2 := a2) (e := e) h1 h2 h3 0 0 0 1 0 0 0 0
    have hal : ∀ t : ℝ, (hirs3 fun j => ([v, ca, cb] : List ℝ).getD j 0).phi (along [s, i, e, T, q] [0, 0, 0, 1, 0] t) (along [a0, a1, a2] [0, 0, 0] t) =
        (hirs3 fun j => ([v, ca, cb] : List ℝ).getD j 0).phi [s, i, e, T + t, q] [a0, a1, a2] := by intro t; simp [along]
    rw [funext hal] at h
    refine h.congr_deriv ?_
    simp only [List.range_succ, List.range_zero, List.nil_append, List.cons_append, List.map_cons, List.map_nil, List.sum_cons, List.sum_nil, List.getD_cons_zero, List.getD_cons_succ]
    ring
  · intro h4 h5 h6
    have hv : v ≠ 0 := by rintro rfl; simp at h3
    have hE' : Real.exp (v * planckH / (boltzK * (ca + cb * T))) - 1 ≠ 0 := sub_ne_zero.2 h3
    have hH : planckH ≠ 0 := by unfold planckH; norm_num
    have hC : lightC ≠ 0 := by unfold lightC; norm_num
    have hk := boltzK_ne
    show ((0.98 + a1) * (e - s) / (i - s)) * (2.0 * planckH * v ^ 3 / lightC ^ 2 / (Real.exp (v * planckH / (boltzK * (ca + cb * T))) - 1)) *
      Real.exp (v * planckH / (boltzK * (ca + cb * T))) / (Real.exp (v * planckH / (boltzK * (ca + cb * T))) - 1.0) * (2.0 * planckH * v * cb) / (boltzK * (ca + cb * T) ^ 2) ≠ 0
    have h10 : (1.0 : ℝ) = 1 := by norm_num
    have h20 : (2.0 : ℝ) ≠ 0 := by norm_num
    have := sub_ne_zero.2 h1
    have := sub_ne_zero.2 h4
    have := Real.exp_ne_zero (v * planckH / (boltzK * (ca + cb * T)))
    rw [h10]
    positivity

/-- **C48 is false of the code** for the HIRS reference sensor: for any number of match-ups the model returns a single number, the radiance of the first
match-up, which the caller then assigns to every match-up of the series. -/
theorem C48_reference_fails (x : ℝ) (xs a c : List ℝ) (xt al : Option (List ℝ)) (t : Option (List δ)) :
    (hirsRef : SensorModel ℝ δ) [x :: xs] a c xt al t = .ok ([x], none) ∧
    ∀ (out : List ℝ) (lo hi : Nat), lo ≤ hi → hi ≤ out.length → setSlice out lo hi [x] = .ok (out.take lo ++ List.replicate (hi - lo) x ++ out.drop hi) := by
  refine ⟨rfl, fun out lo hi h1 h2 => ?_⟩
  have hl : (slice out lo hi).length = hi - lo := by simp [slice]; omega
  unfold setSlice
  simp only [hl, List.length_singleton]
  have h3 : lo + (hi - lo) = hi := by omega
  rw [h3]
  by_cases h : 1 = hi - lo
  · rw [if_pos h, ← h]; rfl
  · rw [if_neg h]

end Verif
