import Verif.Model.SensorModels
import Verif.Spec.Jacobian
import Mathlib.Analysis.Calculus.Deriv.Add
import Mathlib.Analysis.Calculus.Deriv.Mul
import Mathlib.Analysis.Calculus.Deriv.Inv
import Mathlib.Analysis.Calculus.Deriv.Comp
import Mathlib.Analysis.SpecialFunctions.ExpDeriv
import Mathlib.Tactic.FieldSimp
import Mathlib.Tactic.Ring
import Mathlib.Tactic.NormNum
import Mathlib.Tactic.LinearCombination
/-
Properties C47 and C48: derivatives of the AVHRR and HIRS sensor models.
-/
set_option autoImplicit false
namespace Verif
variable {δ : Type}

/-- The measurand of a row given as a list. -/
def RowFun.phi (F : RowFun) (row a : List ℝ) : ℝ := F.value (fun j => row.getD j 0) fun j => a.getD j 0

/-- The declared derivatives of a row given as a list. -/
def RowFun.dphi (F : RowFun) (row a : List ℝ) (j : Nat) : ℝ := (F.derivs (fun j => row.getD j 0) fun j => a.getD j 0).getD j 0

theorem rowOf_getD (X : List (List ℝ)) (i j : Nat) : (rowOf X i).getD j 0 = (X.getD j []).getD i 0 := by
  simp only [rowOf, List.getD_eq_getElem?_getD, List.getElem?_map]
  cases X[j]? <;> simp

theorem RowFun.pointwise (F : RowFun) (h6 : F.nargs = 6) (hc : 0 < F.ncov) (c : List ℝ) : (F.call : SensorModel ℝ δ).Pointwise F.ncov c F.npar F.phi F.dphi := by
  intro X a xt al t k hX hk ha
  have hk0 : (X.headD []).length = k := by
    cases X with
    | nil => simp at hX; omega
    | cons x X => exact hk x (by simp)
  have hr : ∀ i, (fun j => (X.getD j []).getD i 0) = fun j => (rowOf X i).getD j 0 := fun i => funext fun j => (rowOf_getD X i j).symm
  unfold RowFun.call eachRow
  rw [if_neg (by simp [h6]), if_neg (by omega), hk0]
  simp only [hr]
  rfl

/-- A straight line. -/
theorem line_deriv (u v : ℝ) : HasDerivAt (fun t : ℝ => u + t * v) v 0 := by
  simpa using ((hasDerivAt_id (0 : ℝ)).mul_const v).const_add u

theorem list4 {l : List ℝ} (h : l.length = 4) : ∃ a b c d, l = [a, b, c, d] := by
  match l, h with
  | [a, b, c, d], _ => exact ⟨a, b, c, d, rfl⟩

theorem list3 {l : List ℝ} (h : l.length = 3) : ∃ a b c, l = [a, b, c] := by
  match l, h with
  | [a, b, c], _ => exact ⟨a, b, c, rfl⟩

theorem list5 {l : List ℝ} (h : l.length = 5) : ∃ a b c d e, l = [a, b, c, d, e] := by
  match l, h with
  | [a, b, c, d, e], _ => exact ⟨a, b, c, d, e, rfl⟩

theorem avLin_deriv {s i e r : ℝ} (h : s ≠ i) (s' i' e' r' : ℝ) :
    HasDerivAt (fun t : ℝ => (r + t * r') * ((s + t * s') - (e + t * e')) / ((s + t * s') - (i + t * i')))
      (r * (e - i) / (s - i) ^ 2 * s' + r * (s - e) / (s - i) ^ 2 * i' + -r / (s - i) * e' + (s - e) / (s - i) * r') 0 := by
  have hsi : s - i ≠ 0 := sub_ne_zero.2 h
  refine (((line_deriv r r').fun_mul ((line_deriv s s').fun_sub (line_deriv e e'))).fun_div ((line_deriv s s').fun_sub (line_deriv i i')) (by simpa using hsi)).congr_deriv ?_
  simp only [zero_mul, add_zero]
  field_simp
  ring

theorem avQuad_deriv (s i e s' i' e' : ℝ) :
    HasDerivAt (fun t : ℝ => ((i + t * i') - (e + t * e')) * ((s + t * s') - (e + t * e')))
      ((i - e) * s' + (s - e) * i' - (s + i - 2 * e) * e') 0 := by
  refine (((line_deriv i i').fun_sub (line_deriv e e')).fun_mul ((line_deriv s s').fun_sub (line_deriv e e'))).congr_deriv ?_
  simp only [zero_mul, add_zero]
  ring

/-- **C47** (three-parameter AVHRR model): the model works match-up by match-up, its measurand is
`a0 + (0.98514 + a1) R_ICT (C_S - C_E) / (C_S - C_ICT) + a2 (C_ICT - C_E) (C_S - C_E)`, and the derivatives it returns are the derivatives of it at every state with
different space and calibration counts, for every parameter. -/
theorem C47_three_parameters_partial : ∃ φ dφ, (∀ c, (avhrr3.call : SensorModel ℝ δ).Pointwise 4 c 3 φ dφ) ∧
    (∀ s i e r a0 a1 a2 : ℝ, φ [s, i, e, r] [a0, a1, a2] = a0 + (0.98514 + a1) * (r * (s - e) / (s - i)) + a2 * ((i - e) * (s - e))) ∧
    ∀ row a : List ℝ, row.length = 4 → a.length = 3 → row.getD 0 0 ≠ row.getD 1 0 → GradientAt φ dφ row a := by
  have hphi : ∀ s i e r a0 a1 a2 : ℝ, avhrr3.phi [s, i, e, r] [a0, a1, a2] = a0 + (0.98514 + a1) * (r * (s - e) / (s - i)) + a2 * ((i - e) * (s - e)) := by
    intro s i e r a0 a1 a2
    simp only [RowFun.phi, avhrr3, dotRow, avLin, avQuad, List.getD_cons_zero, List.getD_cons_succ, List.zipWith_cons_cons, List.zipWith_nil_left, List.sum_cons, List.sum_nil]
    ring
  refine ⟨avhrr3.phi, avhrr3.dphi, fun c => avhrr3.pointwise rfl (by decide) c, hphi, ?_⟩
  intro row a hr ha hne row' a' hr' ha'
  obtain ⟨s, i, e, r, rfl⟩ := list4 hr
  obtain ⟨a0, a1, a2, rfl⟩ := list3 ha
  obtain ⟨s', i', e', r', rfl⟩ := list4 (hr'.trans rfl)
  obtain ⟨b0, b1, b2, rfl⟩ := list3 (ha'.trans rfl)
  have hsi : s ≠ i := hne
  have hal : ∀ t, avhrr3.phi (along [s, i, e, r] [s', i', e', r'] t) (along [a0, a1, a2] [b0, b1, b2] t) =
      (a0 + t * b0) + ((0.98514 + a1) + t * b1) * ((r + t * r') * ((s + t * s') - (e + t * e')) / ((s + t * s') - (i + t * i'))) +
        (a2 + t * b2) * (((i + t * i') - (e + t * e')) * ((s + t * s') - (e + t * e'))) := by
    intro t
    refine (hphi _ _ _ _ _ _ _).trans ?_
    ring
  rw [funext hal]
  refine (((line_deriv a0 b0).fun_add ((line_deriv (0.98514 + a1) b1).fun_mul (avLin_deriv hsi s' i' e' r'))).fun_add
    ((line_deriv a2 b2).fun_mul (avQuad_deriv s i e s' i' e'))).congr_deriv ?_
  simp only [zero_mul, add_zero, RowFun.dphi, avhrr3, avCov, avLin, avQuad, List.length_cons, List.length_nil, List.range_succ, List.range_zero, List.nil_append, List.cons_append,
    List.map_cons, List.map_nil, List.sum_cons, List.sum_nil, List.getD_cons_zero, List.getD_cons_succ, List.map_append, List.sum_append, Nat.reduceAdd, zero_add]
  ring

/-- **C47 is false of the code** for the rescaled three-parameter model: the measurand depends on `a1 / 1000` and `a2 / 10^6`, but the derivatives returned are
those with respect to `a1 / 1000` and `a2 / 10^6`: 1000 and 10^6 times too large. -/
theorem C47_scaled_fails : ∃ φ dφ, (∀ c, (avhrr3Scaled.call : SensorModel ℝ δ).Pointwise 4 c 3 φ dφ) ∧
    (∀ row a : List ℝ, row.length = 4 → a.length = 3 →
      HasDerivAt (fun t => φ row (along a [0, 1, 0] t)) (dφ row a 5 / 1000) 0 ∧ HasDerivAt (fun t => φ row (along a [0, 0, 1] t)) (dφ row a 6 / 1000000) 0) ∧
    ∀ s i e r a0 a1 a2 : ℝ, r * (s - e) / (s - i) ≠ 0 → ¬ GradientAt φ dφ [s, i, e, r] [a0, a1, a2] := by
  have hphi : ∀ s i e r a0 a1 a2 : ℝ, avhrr3Scaled.phi [s, i, e, r] [a0, a1, a2] =
      a0 + (0.98514 + a1 / 1000) * (r * (s - e) / (s - i)) + a2 / 1000 / 1000 * ((i - e) * (s - e)) := by
    intro s i e r a0 a1 a2
    simp only [RowFun.phi, avhrr3Scaled, dotRow, avLin, avQuad, List.getD_cons_zero, List.getD_cons_succ, List.zipWith_cons_cons, List.zipWith_nil_left, List.sum_cons, List.sum_nil]
    ring
  have h1 : ∀ s i e r a0 a1 a2 : ℝ, HasDerivAt (fun t => avhrr3Scaled.phi [s, i, e, r] (along [a0, a1, a2] [0, 1, 0] t)) (avhrr3Scaled.dphi [s, i, e, r] [a0, a1, a2] 5 / 1000) 0 := by
    intro s i e r a0 a1 a2
    have hal : ∀ t : ℝ, avhrr3Scaled.phi [s, i, e, r] (along [a0, a1, a2] [0, 1, 0] t) =
        (a0 + (0.98514 + a1 / 1000) * (r * (s - e) / (s - i)) + a2 / 1000 / 1000 * ((i - e) * (s - e))) + t * (r * (s - e) / (s - i) / 1000) := by
      intro t; refine (hphi _ _ _ _ _ _ _).trans ?_; ring
    rw [funext hal]
    exact line_deriv _ _
  have h2 : ∀ s i e r a0 a1 a2 : ℝ, HasDerivAt (fun t => avhrr3Scaled.phi [s, i, e, r] (along [a0, a1, a2] [0, 0, 1] t)) (avhrr3Scaled.dphi [s, i, e, r] [a0, a1, a2] 6 / 1000000) 0 := by
    intro s i e r a0 a1 a2
    have hal : ∀ t : ℝ, avhrr3Scaled.phi [s, i, e, r] (along [a0, a1, a2] [0, 0, 1] t) =
        (a0 + (0.98514 + a1 / 1000) * (r * (s - e) / (s - i)) + a2 / 1000 / 1000 * ((i - e) * (s - e))) + t * ((i - e) * (s - e) / 1000000) := by
      intro t; refine (hphi _ _ _ _ _ _ _).trans ?_; ring
    rw [funext hal]
    exact line_deriv _ _
  refine ⟨avhrr3Scaled.phi, avhrr3Scaled.dphi, fun c => avhrr3Scaled.pointwise rfl (by decide) c, ?_, ?_⟩
  · intro row a hr ha
    obtain ⟨s, i, e, r, rfl⟩ := list4 hr
    obtain ⟨a0, a1, a2, rfl⟩ := list3 ha
    exact ⟨h1 .., h2 ..⟩
  · intro s i e r a0 a1 a2 hne hg
    have hd : avhrr3Scaled.dphi [s, i, e, r] [a0, a1, a2] 5 = r * (s - e) / (s - i) := rfl
    have h3 := hg [0, 0, 0, 0] [0, 1, 0] rfl rfl
    have hrow : ∀ t : ℝ, along [s, i, e, r] [0, 0, 0, 0] t = [s, i, e, r] := by intro t; simp [along]
    simp only [hrow] at h3
    have h4 := h3.unique (h1 s i e r a0 a1 a2)
    have h5 : ((List.range [s, i, e, r].length).map fun j => avhrr3Scaled.dphi [s, i, e, r] [a0, a1, a2] j * ([0, 0, 0, 0] : List ℝ).getD j 0).sum +
        ((List.range [a0, a1, a2].length).map fun j => avhrr3Scaled.dphi [s, i, e, r] [a0, a1, a2] ([s, i, e, r].length + j) * ([0, 1, 0] : List ℝ).getD j 0).sum =
        avhrr3Scaled.dphi [s, i, e, r] [a0, a1, a2] 5 := by
      simp [List.range_succ]
    rw [h5, hd] at h4
    apply hne
    linear_combination (1000 / 999) * h4

/-- **C47 is false of the code** for the other six AVHRR models: none of them can be called by the package, whatever the data. (They are the models of
the configurations AVHRR_*_4*, AVHRR_37um_* and AVHRR_sim_4.) -/
theorem C47_uncallable (X : List (List ℝ)) (a c : List ℝ) (xt al : Option (List ℝ)) (t : Option (List δ)) :
    ∀ F ∈ [avhrr4, avhrr37_2, avhrr37_3, avhrr4Scaled, avhrr37_2Scaled, avhrr37_3Scaled], (F.call : SensorModel ℝ δ) X a c xt al t = .error .typeError := by
  intro F hF
  have : F.nargs ≠ 6 := by
    simp only [List.mem_cons, List.not_mem_nil, or_false] at hF
    rcases hF with rfl | rfl | rfl | rfl | rfl | rfl <;> decide
  unfold RowFun.call
  rw [if_pos this]

/-- The formulas of the four-parameter model and of the 3.7 um model with temperature are nevertheless consistent with their derivatives. -/
theorem C47_four_parameters_formula : (∀ row a : List ℝ, row.length = 5 → a.length = 4 → row.getD 0 0 ≠ row.getD 1 0 → GradientAt avhrr4.phi avhrr4.dphi row a) ∧
    ∀ row a : List ℝ, row.length = 5 → a.length = 3 → row.getD 0 0 ≠ row.getD 1 0 → GradientAt avhrr37_3.phi avhrr37_3.dphi row a := by
  constructor
  · intro row a hr ha hne row' a' hr' ha'
    obtain ⟨s, i, e, r, T, rfl⟩ := list5 hr
    obtain ⟨a0, a1, a2, a3, rfl⟩ := list4 ha
    obtain ⟨s', i', e', r', T', rfl⟩ := list5 (hr'.trans rfl)
    obtain ⟨b0, b1, b2, b3, rfl⟩ := list4 (ha'.trans rfl)
    have hsi : s ≠ i := hne
    have hal : ∀ t, avhrr4.phi (along [s, i, e, r, T] [s', i', e', r', T'] t) (along [a0, a1, a2, a3] [b0, b1, b2, b3] t) =
        (a0 + t * b0) + ((0.98514 + a1) + t * b1) * ((r + t * r') * ((s + t * s') - (e + t * e')) / ((s + t * s') - (i + t * i'))) +
          (a2 + t * b2) * (((i + t * i') - (e + t * e')) * ((s + t * s') - (e + t * e'))) + (a3 + t * b3) * (T + t * T') := by
      intro t
      simp only [RowFun.phi, avhrr4, dotRow, avLin, avQuad, along, List.getD_cons_zero, List.getD_cons_succ, List.zipWith_cons_cons, List.zipWith_nil_left, List.sum_cons, List.sum_nil]
      ring
    rw [funext hal]
    refine ((((line_deriv a0 b0).fun_add ((line_deriv (0.98514 + a1) b1).fun_mul (avLin_deriv hsi s' i' e' r'))).fun_add
      ((line_deriv a2 b2).fun_mul (avQuad_deriv s i e s' i' e'))).fun_add ((line_deriv a3 b3).fun_mul (line_deriv T T'))).congr_deriv ?_
    simp only [zero_mul, add_zero, RowFun.dphi, avhrr4, avCov, avLin, avQuad, List.length_cons, List.length_nil, List.range_succ, List.range_zero, List.nil_append, List.cons_append,
      List.map_cons, List.map_nil, List.sum_cons, List.sum_nil, List.getD_cons_zero, List.getD_cons_succ, List.map_append, List.sum_append, Nat.reduceAdd, zero_add]
    ring
  · intro row a hr ha hne row' a' hr' ha'
    obtain ⟨s, i, e, r, T, rfl⟩ := list5 hr
    obtain ⟨a0, a1, a2, rfl⟩ := list3 ha
    obtain ⟨s', i', e', r', T', rfl⟩ := list5 (hr'.trans rfl)
    obtain ⟨b0, b1, b2, rfl⟩ := list3 (ha'.trans rfl)
    have hsi : s ≠ i := hne
    have hal : ∀ t, avhrr37_3.phi (along [s, i, e, r, T] [s', i', e', r', T'] t) (along [a0, a1, a2] [b0, b1, b2] t) =
        (a0 + t * b0) + ((0.98514 + a1) + t * b1) * ((r + t * r') * ((s + t * s') - (e + t * e')) / ((s + t * s') - (i + t * i'))) + (a2 + t * b2) * (T + t * T') := by
      intro t
      simp only [RowFun.phi, avhrr37_3, dotRow, avLin, along, List.getD_cons_zero, List.getD_cons_succ, List.zipWith_cons_cons, List.zipWith_nil_left, List.sum_cons, List.sum_nil]
      ring
    rw [funext hal]
    refine (((line_deriv a0 b0).fun_add ((line_deriv (0.98514 + a1) b1).fun_mul (avLin_deriv hsi s' i' e' r'))).fun_add
      ((line_deriv a2 b2).fun_mul (line_deriv T T'))).congr_deriv ?_
    simp only [zero_mul, add_zero, RowFun.dphi, avhrr37_3, avCov2, avLin, List.length_cons, List.length_nil, List.range_succ, List.range_zero, List.nil_append, List.cons_append,
      List.map_cons, List.map_nil, List.sum_cons, List.sum_nil, List.getD_cons_zero, List.getD_cons_succ, List.map_append, List.sum_append, Nat.reduceAdd, zero_add]
    ring

/-- **C47, with C30**: a sensor with the three-parameter model and no adjustment model meets the smoothness hypothesis of C30 wherever the space and calibration
counts of the estimate differ. -/
theorem C47_smooth_for_solver {g : GN ℝ δ} {ms : Evaluable ℝ δ} {labels clabels : List String} {n k s : Nat} {name : String} {X : List (List ℝ)}
    (h1 : ms.mu.idx.sensors[s]? = some name) (h2 : ms.mu.idx.sensor_ms[s]? = some 4) (h3 : ms.sensor_model[s]? = some avhrr3.call)
    (h4 : ms.adjustment_model[s]? = some defaultAdjustment) (h5 : labels.count name = 3)
    (h6 : (labelled labels (g.xyza.drop g.hd.mu.values.length) name).length = 3)
    (hX : unconvertXs g.hd.mu.w_matrices g.hd.mu.u_matrices g.xyza g.hd.mu.unc g.hd.mu.idx s n = .ok X) (hX4 : X.length = 4)
    (hne : ∀ r, r < k → (X.getD 0 []).getD r 0 ≠ (X.getD 1 []).getD r 0) : g.SmoothSide ms labels clabels n k s := by
  obtain ⟨φ, dφ, p1, _, p3⟩ := C47_three_parameters_partial (δ := δ)
  refine ⟨name, 4, avhrr3.call, defaultAdjustment, X, id, fun _ => 1, h1, h2, h3, h4, hX, fun R => ?_, .inl ⟨φ, dφ, ?_, fun r hr => ⟨?_, ?_⟩⟩⟩
  · simp [defaultAdjustment]
  · rw [h5]; exact p1 _
  · refine p3 _ _ (by simp [rowOf, hX4]) h6 ?_
    rw [rowOf_getD, rowOf_getD]; exact hne r hr
  · exact hasDerivAt_id _

theorem C47_case : (avhrr3.call : SensorModel ℝ Int) [[10, 20], [2, 4], [6, 4], [8, 3]] [1, 2, 3] [] none none none =
      .ok ([1 + (0.98514 + 2) * 4 - 48, 1 + (0.98514 + 2) * 3], some
        [[(0.98514 + 2) * 8 * 4 / 64 + 3 * (-4), 0], [(0.98514 + 2) * 8 * 4 / 64 + 3 * 4, (0.98514 + 2) * 3 * 16 / 256 + 3 * 16],
         [-(0.98514 + 2) * 8 / 8 - 3 * 0, -(0.98514 + 2) * 3 / 16 - 3 * 16], [(0.98514 + 2) * 4 / 8, (0.98514 + 2) * 16 / 16], [1, 1], [4, 3], [-16, 0]]) := by
  simp [RowFun.call, eachRow, avhrr3, avCov, avLin, avQuad, dotRow, List.range_succ]
  norm_num

end Verif
