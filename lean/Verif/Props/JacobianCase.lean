import Verif.Props.Jacobian
import Verif.Lemmas.KernelRfl
import Mathlib.Analysis.Calculus.Deriv.Add
/-
Property C30: a concrete case, and the case of a reference sensor with a systematic uncertainty, where the property fails.
-/
set_option autoImplicit false
namespace Verif
namespace Fixture

/-- One series of two match-ups: sensor A with one covariate, sensor B with two. -/
def realIdx : Idx :=
  { Nm := [2], cNm := [0, 2], Im := [(0, 1)], sensors := ["A", "B"], sensor_ms := [1, 2], n_sensor := [0, 1, 1], n_mu := [1, 1, 1]
    n_cov := [1, 1, 2], N_var := [2, 2, 2], idx := [0, 2, 4, 6], parameter_sensor := some ["B", "B"], constant_sensor := some [] }

/-- A is a reference with independent uncertainties; the two covariates of B have a systematic effect and a W matrix. -/
noncomputable def realCase : Evaluable ℝ Int :=
  { mu :=
      { idx := realIdx, original_idx := realIdx, values := [1, 2, 3, 4, 5, 6], ks := [2, 7], unck := [[1, 4]]
        unc := [{ unc := .independent [1, 2], uS_i := none }, { unc := .systematic [2, 1] [3, 5], uS_i := some 1 }, { unc := .structured 0 0, uS_i := none }]
        w_matrices := [some { data := [1/2, 1/2, 1/3, 2/3], indices := [0, 1, 1, 2], indptr := [0, 2, 4], nrows := 2, ncols := 3 }]
        u_matrices := [some [2, 3, 4]]
        time1 := none, time2 := none, across_track_index1 := none, across_track_index2 := none, along_track_index1 := none, along_track_index2 := none
        additional_values := none }
    a := [2, 3], constant := [], sensor_model := [gnRef, gnCal], adjustment_model := [adjSq, adjSq] }

theorem realCase_ready : realCase.SolverReady ["B", "B"] [] 2 := by
  refine ⟨⟨⟨rfl, rfl, rfl, ?_, ?_⟩, rfl, rfl, rfl, rfl⟩, ⟨rfl, rfl⟩, rfl, rfl, ?_, ⟨rfl, rfl⟩, rfl, rfl, ?_, ?_⟩
  · intro b n hb
    rcases b with _ | _ | _ | b
    · cases hb; exact ⟨le_rfl, 2, rfl, rfl⟩
    · cases hb; exact ⟨le_rfl, 2, rfl, rfl⟩
    · cases hb; exact ⟨le_rfl, 2, rfl, rfl⟩
    · simp [realCase, realIdx] at hb
  · intro n h1 h2
    have : n = 1 := by simp [realCase, realIdx] at h2; omega
    subst this
    simp [realCase, realIdx]
  · intro b n u hu hn
    rcases b with _ | _ | _ | b
    · cases hu; cases hn; exact rfl
    · cases hu; cases hn; exact ⟨rfl, rfl, 1, rfl, le_rfl⟩
    · cases hu; cases hn; exact ⟨_, _, rfl, rfl, ⟨rfl, rfl, (by decide)⟩, rfl, rfl⟩
    · simp [realCase, realIdx] at hn
  · intro p hp
    simp only [realCase, realIdx, List.mem_cons, List.not_mem_nil, or_false] at hp
    subst hp
    simp [realCase, realIdx]
  · intro i pair hp
    rcases i with _ | i
    · cases hp
      refine ⟨⟨"A", 1, gnRef, adjSq, rfl, rfl, rfl, rfl, fun R => ⟨_, _, rfl, by simp, by simp⟩, le_rfl, rfl, .inr ⟨gnRef_reference _ _, ?_⟩⟩,
        ⟨"B", 2, gnCal, adjSq, rfl, rfl, rfl, rfl, fun R => ⟨_, _, rfl, by simp, by simp⟩, (by omega), rfl, .inl ⟨gnCal_calibrated _, rfl, (by simp)⟩⟩⟩
      intro b c u hb hu
      rcases b with _ | _ | _ | b
      · cases hu; exact .inl rfl
      · cases hb
      · cases hb
      · simp [realCase, realIdx, Idx.blocks] at hb
    · simp [realCase, realIdx] at hp

noncomputable def calPhi (row a : List ℝ) : ℝ := a.getD 0 0 * row.getD 0 0 * row.getD 1 0 + a.getD 1 0

noncomputable def calGrad (row a : List ℝ) : Nat → ℝ
  | 0 => a.getD 0 0 * row.getD 1 0
  | 1 => a.getD 0 0 * row.getD 0 0
  | 2 => row.getD 0 0 * row.getD 1 0
  | _ => 1

theorem gnCal_pointwise (c : List ℝ) : (gnCal : SensorModel ℝ Int).Pointwise 2 c 2 calPhi calGrad := by
  intro X a xt al t k hX hk _
  obtain ⟨x0, x1, rfl⟩ := List.length_eq_two.1 hX
  have h0 := hk x0 (by simp)
  have h1 := hk x1 (by simp)
  have e0 : x0 = (List.range k).map fun i => x0.getD i 0 := by
    apply List.ext_getElem <;> simp +contextual [h0, List.getD]
  have e1 : x1 = (List.range k).map fun i => x1.getD i 0 := by
    apply List.ext_getElem <;> simp +contextual [h1, List.getD]
  have hr : ∀ i, rowOf [x0, x1] i = [x0.getD i 0, x1.getD i 0] := fun i => rfl
  unfold gnCal
  have ez : ∀ f : ℝ → ℝ → ℝ, List.zipWith f x0 x1 = (List.range k).map fun i => f (x0.getD i 0) (x1.getD i 0) := by
    intro f
    apply List.ext_getElem <;> simp +contextual [h0, h1, List.getD]
  have em0 : ∀ f : ℝ → ℝ, x0.map f = (List.range k).map fun i => f (x0.getD i 0) := by
    intro f
    apply List.ext_getElem <;> simp +contextual [h0, List.getD]
  have em1 : ∀ f : ℝ → ℝ, x1.map f = (List.range k).map fun i => f (x1.getD i 0) := by
    intro f
    apply List.ext_getElem <;> simp +contextual [h1, List.getD]
  have q0 : ([x0, x1] : List (List ℝ)).getD 0 [] = x0 := rfl
  have q1 : ([x0, x1] : List (List ℝ)).getD 1 [] = x1 := rfl
  simp only [q0, q1, ez, em0, em1, hr]
  rfl

theorem calPhi_gradient (row a : List ℝ) (hr : row.length = 2) (ha : a.length = 2) : GradientAt calPhi calGrad row a := by
  intro row' a' h1 h2
  obtain ⟨x0, x1, rfl⟩ := List.length_eq_two.1 hr
  obtain ⟨a0, a1, rfl⟩ := List.length_eq_two.1 ha
  obtain ⟨y0, y1, rfl⟩ := List.length_eq_two.1 h1
  obtain ⟨b0, b1, rfl⟩ := List.length_eq_two.1 h2
  have e : (fun t : ℝ => calPhi (along [x0, x1] [y0, y1] t) (along [a0, a1] [b0, b1] t)) =
      fun t => (a0 + t * b0) * (x0 + t * y0) * (x1 + t * y1) + (a1 + t * b1) := rfl
  rw [e]
  have l : ∀ u v : ℝ, HasDerivAt (fun t : ℝ => u + t * v) v 0 := by
    intro u v
    simpa using ((hasDerivAt_id (0 : ℝ)).mul_const v).const_add u
  refine ((((l a0 b0).fun_mul (l x0 y0)).fun_mul (l x1 y1)).fun_add (l a1 b1)).congr_deriv ?_
  simp [List.range_succ, calGrad]
  ring

/-- The solver started at the data. -/
noncomputable def realStart : Py (GN ℝ Int) := do
  let nm ← realCase.normalise
  pure { hd := nm, xyza := nm.mu.values ++ nm.a, S := [[1, 1/2], [0, 3]] }

end Fixture

open Fixture in
/-- The hypotheses of C30 are met. -/
theorem C30_case : ∃ g, realStart = .ok g ∧ realCase.SolverReady ["B", "B"] [] 2 ∧ g.Solves realCase ∧ g.Smooth realCase ["B", "B"] [] ∧
    g.hd.mu.values.length = 8 ∧ g.hd.mu.ks.length = 2 := by
  obtain ⟨nm, hn⟩ : ∃ nm, realCase.normalise = .ok nm := ⟨_, rfl⟩
  have hl : nm.mu.values.length = 8 ∧ nm.mu.ks.length = 2 ∧ nm.a.length = 2 := by
    have : realCase.normalise.map (fun m => (m.mu.values.length, m.mu.ks.length, m.a.length)) = .ok (8, 2, 2) := by kernel_rfl
    rw [hn] at this
    simpa [Except.map] using this
  obtain ⟨l1, l2, l3⟩ := hl
  refine ⟨{ hd := nm, xyza := nm.mu.values ++ nm.a, S := [[1, 1/2], [0, 3]] }, ?_, realCase_ready, ?_⟩
  · unfold realStart
    rw [hn]
    rfl
  have hS : GN.Solves { hd := nm, xyza := nm.mu.values ++ nm.a, S := [[1, 1/2], [0, 3]] } realCase :=
    ⟨hn, by simp, by simp [l3], by simp [l3]⟩
  refine ⟨hS, ?_, l1, l2⟩
  obtain ⟨N, n, hs⟩ := hS.setup realCase_ready
  intro i k pair hp hk
  rcases i with _ | i
  · cases hp; cases hk
    have hv := hs.facts.vlen
    refine ⟨⟨"A", 1, gnRef, adjSq, _, fun x => x * x, fun x => 2 * x, rfl, rfl, rfl, rfl,
        ready_unconvert realCase_ready hs.facts rfl rfl rfl (by rw [hs.xlen]; omega), fun R => rfl, .inr ⟨gnRef_reference _ _, ?_, ?_⟩⟩,
      ⟨"B", 2, gnCal, adjSq, _, fun x => x * x, fun x => 2 * x, rfl, rfl, rfl, rfl,
        ready_unconvert realCase_ready hs.facts rfl rfl rfl (by rw [hs.xlen]; omega), fun R => rfl, .inl ⟨calPhi, calGrad, gnCal_pointwise _, ?_⟩⟩⟩
    · intro b c u hb hu
      rcases b with _ | _ | _ | b
      · cases hu; rfl
      · cases hb
      · cases hb
      · simp [realCase, realIdx, Idx.blocks] at hb
    · intro r _
      refine ((hasDerivAt_id _).fun_mul (hasDerivAt_id _)).congr_deriv ?_
      simp only [id]; ring
    · intro r _
      refine ⟨calPhi_gradient _ _ (by simp [rowOf]) ?_, ?_⟩
      · simp only [List.drop_left]
        obtain ⟨a0, a1, ha⟩ := List.length_eq_two.1 l3
        rw [ha]
        rfl
      · refine ((hasDerivAt_id _).fun_mul (hasDerivAt_id _)).congr_deriv ?_
        simp only [id]; ring
  · simp [realCase, realIdx] at hp

/-! ### A reference sensor with a systematic uncertainty -/

namespace Fixture

/-- One series of one match-up, one covariate for each sensor. -/
def tinyIdx : Idx :=
  { Nm := [1], cNm := [0, 1], Im := [(0, 1)], sensors := ["A", "B"], sensor_ms := [1, 1], n_sensor := [0, 1], n_mu := [1, 1]
    n_cov := [1, 1], N_var := [1, 1], idx := [0, 1, 2], parameter_sensor := some ["B"], constant_sensor := some [] }

/-- `a0 * x0`. -/
def linCal {α δ : Type} [Field α] : SensorModel α δ := fun X a _ _ _ _ =>
  .ok ((X.headD []).map (a.getD 0 0 * ·), some [(X.headD []).map fun _ => a.getD 0 0, X.headD []])

/-- Reference A: random uncertainty `r`, systematic uncertainty `s`; calibrated sensor B: random uncertainty `r`. -/
def tinyCase {α : Type} [Field α] (r s v0 v1 k a : α) : Evaluable α Int :=
  { mu :=
      { idx := tinyIdx, original_idx := tinyIdx, values := [v0, v1], ks := [k], unck := [[r]]
        unc := [{ unc := .systematic [r] [s], uS_i := some 1 }, { unc := .independent [r], uS_i := none }]
        w_matrices := [], u_matrices := []
        time1 := none, time2 := none, across_track_index1 := none, across_track_index2 := none, along_track_index1 := none, along_track_index2 := none
        additional_values := none }
    a := [a], constant := [], sensor_model := [gnRef, linCal], adjustment_model := [defaultAdjustment, defaultAdjustment] }

/-- The solver on the normalised match-up. -/
def tinyG {α : Type} [Field α] (r s v0 v1 k a : α) (xyza : List α) : GN α Int :=
  { hd := { tinyCase r s v0 v1 k a with
            mu := { (tinyCase r s v0 v1 k a).mu with idx := { tinyIdx with idx := [0, 1, 3] }, values := [v0 / r, v1 / r, 0], ks := [k / r] } }
    xyza := xyza, S := [[1]] }

theorem tinyG_norm {α : Type} [Field α] (r s v0 v1 k a : α) (l : List α) : (tinyCase r s v0 v1 k a).normalise = .ok (tinyG r s v0 v1 k a l).hd := by
  kernel_rfl

theorem tinyG_calcF {α : Type} [Field α] (r s v0 v1 k a x0 x1 x2 x3 : α) (l : List α) : (tinyG r s v0 v1 k a l).calcF [x0, x1, x2, x3] =
    .ok [x0 - v0 / r, x1 - v1 / r, x2 - 0, (x3 * (x1 * r) - (x0 * r + x2 * s)) / r - k / r] := by
  kernel_rfl

theorem tinyG_getJPx {α : Type} [Field α] (r s v0 v1 k a y0 y1 y2 y3 : α) : (tinyG r s v0 v1 k a [y0, y1, y2, y3]).getJPx [0, 0, 1, 0] =
    .ok [0, 0, 1, (0 + ((-1) * 1) * 0 * r / r) + (1 * 1) * y3 * 0 * r / r + (1 * (1 / r * (y1 * r) * (1 * 0 + 0) + 0))] := by
  kernel_rfl

theorem tinyCase_ready {α : Type} [Field α] (r s v0 v1 k a : α) : (tinyCase r s v0 v1 k a).SolverReady ["B"] [] 1 := by
  refine ⟨⟨⟨rfl, rfl, rfl, ?_, ?_⟩, rfl, rfl, rfl, rfl⟩, ⟨rfl, rfl⟩, rfl, rfl, ?_, ⟨rfl, rfl⟩, rfl, rfl, ?_, ?_⟩
  · intro b n hb
    rcases b with _ | _ | b
    · cases hb; exact ⟨le_rfl, 1, rfl, rfl⟩
    · cases hb; exact ⟨le_rfl, 1, rfl, rfl⟩
    · simp [tinyCase, tinyIdx] at hb
  · intro n h1 h2
    have : n = 1 := by simp [tinyCase, tinyIdx] at h2; omega
    subst this
    simp [tinyCase, tinyIdx]
  · intro b n u hu hn
    rcases b with _ | _ | b
    · cases hu; cases hn; exact ⟨rfl, rfl, 1, rfl, le_rfl⟩
    · cases hu; cases hn; exact rfl
    · simp [tinyCase, tinyIdx] at hn
  · intro p hp
    simp only [tinyCase, tinyIdx, List.mem_cons, List.not_mem_nil, or_false] at hp
    subst hp
    simp [tinyCase, tinyIdx]
  · intro i pair hp
    rcases i with _ | i
    · cases hp
      refine ⟨⟨"A", 1, gnRef, defaultAdjustment, rfl, rfl, rfl, rfl, fun R => ⟨_, _, rfl, rfl, by simp⟩, le_rfl, rfl, .inr ⟨gnRef_reference _ _, ?_⟩⟩,
        ⟨"B", 1, linCal, defaultAdjustment, rfl, rfl, rfl, rfl, fun R => ⟨_, _, rfl, rfl, by simp⟩, le_rfl, rfl, .inl ⟨?_, rfl, by simp⟩⟩⟩
      · intro b c u hb hu
        rcases b with _ | _ | b
        · cases hu; exact .inr rfl
        · cases hb
        · simp [tinyCase, tinyIdx, Idx.blocks] at hb
      · intro X a' xt al t n hX hn _
        obtain ⟨x0, rfl⟩ := List.length_eq_one_iff.1 hX
        have h0 := hn x0 (by simp)
        refine ⟨_, _, rfl, by simpa using h0, rfl, ?_⟩
        intro col hcol
        simp only [List.headD_cons, List.mem_cons, List.not_mem_nil, or_false] at hcol
        rcases hcol with rfl | rfl <;> simp [h0]
    · simp [tinyCase, tinyIdx] at hp

end Fixture

open Fixture in
/-- **C30, where it fails.** When a reference sensor has a systematic uncertainty the residuals depend on the fitted systematic error, but the Jacobian
products leave the dependence out: here a residual has derivative -1 along a direction in which the product is 0. -/
theorem C30_systematic_reference_fails : ∃ (ms : Evaluable ℝ Int) (g : GN ℝ Int) (labels clabels : List String) (m : Nat) (v w u : List ℝ) (F : ℝ → List ℝ),
    ms.SolverReady labels clabels m ∧ g.Solves ms ∧ v.length = g.xyza.length ∧ g.calcPx false v = .ok w ∧ g.getJPx v = .ok u ∧
    (∀ t, g.calcF (along g.xyza w t) = .ok (F t)) ∧
    ∃ r, r < u.length ∧ u.getD r 0 = 0 ∧ HasDerivAt (fun t => (F t).getD r 0) (-1) 0 := by
  refine ⟨tinyCase 1 1 1 1 0 1, tinyG 1 1 1 1 0 1 [1, 1, 0, 1], ["B"], [], 1, [0, 0, 1, 0], [0, 0, 1, 0], _, fun t => _, tinyCase_ready _ _ _ _ _ _,
    ⟨tinyG_norm _ _ _ _ _ _ _, rfl, rfl, by simp [tinyG, tinyCase]⟩, rfl, ?_, tinyG_getJPx _ _ _ _ _ _ _ _ _ _, fun t => tinyG_calcF _ _ _ _ _ _ _ _ _ _ _,
    3, by simp, by simp, ?_⟩
  · have : (tinyG (1:ℝ) 1 1 1 0 1 [1, 1, 0, 1]).calcPx false [0, 0, 1, 0] = .ok [0, 0, 1, 1 * 0 + 0] := by kernel_rfl
    rw [this]; simp
  · have : (fun t : ℝ => ([1 + t * 0 - 1 / 1, 1 + t * 0 - 1 / 1, 0 + t * 1 - 0, ((1 + t * 0) * ((1 + t * 0) * 1) - ((1 + t * 0) * 1 + (0 + t * 1) * 1)) / 1 - 0 / 1] : List ℝ).getD 3 0) = fun t => -t := by
      funext t
      simp
    rw [this]
    exact hasDerivAt_neg 0

end Verif
