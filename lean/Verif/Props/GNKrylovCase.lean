import Verif.Props.GNKrylov
/-
C63: runs with the LSMR solver as coded return, and a concrete case.
-/
set_option autoImplicit false
namespace Verif
variable {δ : Type}
open Matrix

/-- The call made by a step returns, for residuals outside the range of the Jacobian, if the gradient is not zero or the object holds a vector. -/
theorem lsmrObject_total {ms : Evaluable ℝ δ} {labels clabels : List String} {m : Nat} (h : ms.SolverReady labels clabels m) {g : GN ℝ δ} (hg : g.Solves ms)
    {o : LsmrOpts ℝ} (hh : 0 < o.huge) {f : List ℝ} (hf : g.calcF g.xyza = .ok f)
    (hr : ∀ v : List ℝ, v.length = g.xyza.length → g.getJPx v ≠ .ok (f.map fun r => -r)) {held : Option (List ℝ)}
    (hheld : (∃ w, held = some w ∧ w.length = g.xyza.length) ∨ ∃ grad, g.getJPTx f = .ok grad ∧ ∃ e ∈ grad, e ≠ 0) :
    ∃ z, GN.lsmrObject o realSqrt g (f.map fun r => -r) held = .ok (some z) ∧ z.length = g.xyza.length := by
  obtain ⟨J, hJ⟩ := jacobian_exists h hg
  obtain ⟨N, n, hset⟩ := hg.setup h
  obtain ⟨s1, s2, s3⟩ := hset.sizes
  have hv := hset.var_eq
  have hm := hset.mu_eq
  rw [← s1] at hv
  rw [← s3] at hm
  have hfl : f.length = g.hd.mu.values.length + g.hd.mu.ks.length := by
    obtain ⟨f', q1, q2⟩ := calcF_total hset hset.xlen
    rw [hf] at q1; cases q1
    rw [q2, s1, s3]
  obtain ⟨b, hb⟩ : ∃ b : Fin (g.hd.mu.values.length + g.hd.mu.ks.length) → ℝ, f.map (fun r => -r) = List.ofFn b :=
    ⟨_, (ofFn_getD (by rw [List.length_map, hfl])).symm⟩
  have hA := operator_ok hJ.1
  have hAH := operator_ok hJ.2
  have hne : ∀ y, J *ᵥ y ≠ b := by
    intro y hy
    refine hr (List.ofFn y) (by rw [hg.xyza]; simp) ?_
    rw [hJ.1, hy, hb]
  obtain ⟨st, x, hsol, _⟩ := C62_lsmr_returns hne (opts := { o with damp := 0, itnlim := g.hd.mu.values.length }) rfl hh hA hAH none
  have hcall : GN.lsmrObject o realSqrt g (f.map fun r => -r) held = .ok ((x.map List.ofFn).or held) := by
    unfold GN.lsmrObject
    exact bind_ok.2 ⟨_, hm, bind_ok.2 ⟨_, hv, bind_ok.2 ⟨b, by rw [hb]; exact toVec_ofFn b, bind_ok.2 ⟨(st, x), hsol, rfl⟩⟩⟩⟩
  rw [hcall]
  rcases x with _ | x
  · rcases hheld with ⟨w, rfl, hw⟩ | ⟨grad, h1, e, h2, h3⟩
    · exact ⟨w, rfl, hw⟩
    · exfalso
      obtain ⟨c1, _⟩ := C62_lsmr (opts := { o with damp := 0, itnlim := g.hd.mu.values.length }) rfl hh realSqrt_spec hA hAH hsol
      have hz : Jᵀ *ᵥ b = 0 := by
        by_contra hz
        cases c1 hz
      have hfb : f = List.ofFn (-b) := by
        have : f = (f.map fun r => -r).map fun r => -r := by simp
        rw [this, hb, List.map_ofFn]
        rfl
      rw [hfb, hJ.2, Matrix.mulVec_neg, hz, neg_zero] at h1
      cases h1
      obtain ⟨i, hi⟩ := List.mem_ofFn.1 h2
      exact h3 hi.symm
  · exact ⟨List.ofFn x, rfl, by rw [hg.xyza]; simp⟩

/-- **C63, C57: the run returns.** With the LSMR solver as coded, over the reals: if the starting gradient is not zero, and at no estimate the linearised equations have an
exact solution, the run returns (provided the covariance, if asked for, is computed). -/
theorem C63_run_returns {ms : Evaluable ℝ δ} {labels clabels : List String} {m : Nat} (h : ms.SolverReady labels clabels m) (hnm : ms.mu.Named) {g : GN ℝ δ} (hg : g.Solves ms)
    (hpos : 1 ≤ g.hd.mu.values.length) {o : LsmrOpts ℝ} (hh : 0 < o.huge)
    (hstart : ∃ f grad, g.calcF g.xyza = .ok f ∧ g.getJPTx f = .ok grad ∧ ∃ e ∈ grad, e ≠ 0)
    (hinc : ∀ x f v : List ℝ, x.length = g.xyza.length → g.calcF x = .ok f → v.length = g.xyza.length → ({ g with xyza := x } : GN ℝ δ).getJPx v ≠ .ok (f.map fun r => -r))
    {minres : GN ℝ δ → List ℝ → Py (List ℝ)} {rc : Bool} (hm : rc = true → ∀ x, x.length = g.xyza.length → ∃ V, GN.covariance { g with xyza := x } minres = .ok V)
    (tol : GNTol ℝ) : ∃ res, g.run (GN.lsmrObject o realSqrt) minres tol rc = .ok res := by
  refine run_total h hnm hg hpos ⟨fun f hf => ?_, fun x f w hx hf hw => ?_⟩ rc hm tol
  · obtain ⟨f', grad, q1, q2⟩ := hstart
    rw [hf] at q1; cases q1
    obtain ⟨z, e1, e2⟩ := lsmrObject_total h hg hh (held := none) hf (fun v hv => hinc _ _ v rfl hf hv) (.inr ⟨grad, q2⟩)
    exact ⟨z, e1, by rw [e2, hg.xyza]⟩
  · obtain ⟨z, e1, e2⟩ := lsmrObject_total h (g := { g with xyza := x }) ⟨hg.norm, by rw [← hg.xyza]; exact hx, hg.rows, hg.cols⟩ hh (held := some w) hf
      (fun v hv => hinc _ _ v hx hf (by rw [hv]; exact hx)) (.inl ⟨w, rfl, by rw [hw, ← hg.xyza]; exact hx.symm⟩)
    exact ⟨z, e1, by rw [e2, ← hg.xyza]; exact hx⟩

namespace Fixture

def pairIdx : Idx :=
  { Nm := [2], cNm := [0, 2], Im := [(0, 1)], sensors := ["A", "B"], sensor_ms := [1, 1], n_sensor := [0, 1], n_mu := [1, 1]
    n_cov := [1, 1], N_var := [2, 2], idx := [0, 2, 4], parameter_sensor := some ["B"], constant_sensor := some [] }

/-- The measurand is the parameter, whatever the data. -/
def offsetCal {α δ : Type} [Field α] : SensorModel α δ := fun X a _ _ _ _ =>
  .ok ((X.headD []).map fun _ => a.getD 0 0, some [(X.headD []).map fun _ => 0, (X.headD []).map fun _ => 1])

/-- Two match-ups of a reference A with a calibrated sensor B, all uncertainties one. -/
def pairCase {α : Type} [Field α] (r0 r1 x0 x1 k0 k1 a : α) : Evaluable α Int :=
  { mu :=
      { idx := pairIdx, original_idx := pairIdx, values := [r0, r1, x0, x1], ks := [k0, k1], unck := [[1, 1]]
        unc := [{ unc := .independent [1, 1], uS_i := none }, { unc := .independent [1, 1], uS_i := none }]
        w_matrices := [], u_matrices := []
        time1 := none, time2 := none, across_track_index1 := none, across_track_index2 := none, along_track_index1 := none, along_track_index2 := none
        additional_values := none }
    a := [a], constant := [], sensor_model := [gnRef, offsetCal], adjustment_model := [defaultAdjustment, defaultAdjustment] }

def pairG {α : Type} [Field α] (r0 r1 x0 x1 k0 k1 a : α) (xyza : List α) : GN α Int :=
  { hd := { pairCase r0 r1 x0 x1 k0 k1 a with
            mu := { (pairCase r0 r1 x0 x1 k0 k1 a).mu with values := [r0 / 1, r1 / 1, x0 / 1, x1 / 1], ks := [k0 / 1, k1 / 1] } }
    xyza := xyza, S := [[1]] }

theorem pairG_norm {α : Type} [Field α] (r0 r1 x0 x1 k0 k1 a : α) (l : List α) : (pairCase r0 r1 x0 x1 k0 k1 a).normalise = .ok (pairG r0 r1 x0 x1 k0 k1 a l).hd := by
  kernel_rfl

theorem pairG_calcF {α : Type} [Field α] (r0 r1 x0 x1 k0 k1 a y0 y1 y2 y3 y4 : α) (l : List α) : (pairG r0 r1 x0 x1 k0 k1 a l).calcF [y0, y1, y2, y3, y4] =
    .ok [y0 - r0 / 1, y1 - r1 / 1, y2 - x0 / 1, y3 - x1 / 1, (y4 - y0 * 1) / 1 - k0 / 1, (y4 - y1 * 1) / 1 - k1 / 1] := by
  kernel_rfl

theorem pairG_getJPx {α : Type} [Field α] (r0 r1 x0 x1 k0 k1 a y0 y1 y2 y3 y4 v0 v1 v2 v3 v4 : α) :
    (pairG r0 r1 x0 x1 k0 k1 a [y0, y1, y2, y3, y4]).getJPx [v0, v1, v2, v3, v4] =
    .ok [v0, v1, v2, v3, (0 + ((-1) * 1) * v0 * 1 / 1) + (1 * 1) * 0 * v2 * 1 / 1 + (1 * (1 / 1 * 1 * (1 * v4 + 0) + 0)),
      (0 + ((-1) * 1) * v1 * 1 / 1) + (1 * 1) * 0 * v3 * 1 / 1 + (1 * (1 / 1 * 1 * (1 * v4 + 0) + 0))] := by
  kernel_rfl

theorem pairG_getJPTx {α : Type} [Field α] (r0 r1 x0 x1 k0 k1 a y0 y1 y2 y3 y4 v0 v1 v2 v3 v4 v5 : α) :
    (pairG r0 r1 x0 x1 k0 k1 a [y0, y1, y2, y3, y4]).getJPTx [v0, v1, v2, v3, v4, v5] =
    .ok [v0 + ((-1) * 1) * v4 * 1 / 1, v1 + ((-1) * 1) * v5 * 1 / 1, v2 + (1 * 1) * 0 * v4 * 1 / 1, v3 + (1 * 1) * 0 * v5 * 1 / 1,
      1 * (0 + 1 * (1 * 1 * (v4 / 1) + (1 * 1 * (v5 / 1) + 0))) + 0] := by
  kernel_rfl

theorem pairCase_ready {α : Type} [Field α] (r0 r1 x0 x1 k0 k1 a : α) : (pairCase r0 r1 x0 x1 k0 k1 a).SolverReady ["B"] [] 1 := by
  refine ⟨⟨⟨rfl, rfl, rfl, ?_, ?_⟩, rfl, rfl, rfl, rfl⟩, ⟨rfl, rfl⟩, rfl, rfl, ?_, ⟨rfl, rfl⟩, rfl, rfl, ?_, ?_⟩
  · intro b n hb
    rcases b with _ | _ | b
    · cases hb; exact ⟨le_rfl, 2, rfl, rfl⟩
    · cases hb; exact ⟨le_rfl, 2, rfl, rfl⟩
    · simp [pairCase, pairIdx] at hb
  · intro n h1 h2
    have : n = 1 := by simp [pairCase, pairIdx] at h2; omega
    subst this
    simp [pairCase, pairIdx]
  · intro b n u hu hn
    rcases b with _ | _ | b
    · cases hu; cases hn; exact rfl
    · cases hu; cases hn; exact rfl
    · simp [pairCase, pairIdx] at hn
  · intro p hp
    simp only [pairCase, pairIdx, List.mem_cons, List.not_mem_nil, or_false] at hp
    subst hp
    simp [pairCase, pairIdx]
  · intro i pair hp
    rcases i with _ | i
    · cases hp
      refine ⟨⟨"A", 1, gnRef, defaultAdjustment, rfl, rfl, rfl, rfl, fun R => ⟨_, _, rfl, rfl, by simp⟩, le_rfl, rfl, .inr ⟨gnRef_reference _ _, ?_⟩⟩,
        ⟨"B", 1, offsetCal, defaultAdjustment, rfl, rfl, rfl, rfl, fun R => ⟨_, _, rfl, rfl, by simp⟩, le_rfl, rfl, .inl ⟨?_, rfl, by simp⟩⟩⟩
      · intro b c u hb hu
        rcases b with _ | _ | b
        · cases hu; exact .inl rfl
        · cases hb
        · simp [pairCase, pairIdx, Idx.blocks] at hb
      · intro X a' xt al t n hX hn _
        obtain ⟨x0, rfl⟩ := List.length_eq_one_iff.1 hX
        have h0 := hn x0 (by simp)
        refine ⟨_, _, rfl, by simpa using h0, rfl, ?_⟩
        intro col hcol
        simp only [List.headD_cons, List.mem_cons, List.not_mem_nil, or_false] at hcol
        rcases hcol with rfl | rfl <;> simp [h0]
    · simp [pairCase, pairIdx] at hp

theorem pairCase_named {α : Type} [Field α] (r0 r1 x0 x1 k0 k1 a : α) : (pairCase r0 r1 x0 x1 k0 k1 a).mu.Named := by
  refine ⟨?_, ?_, ?_, ?_⟩
  · intro u hu ht
    simp only [pairCase, List.mem_cons, List.not_mem_nil, or_false, or_self] at hu
    subst hu
    simp [Unc.typeID] at ht
  · intro u hu k hk
    simp only [pairCase, List.mem_cons, List.not_mem_nil, or_false, or_self] at hu
    subst hu
    cases hk
  · simp [pairCase, pairIdx]
  · simp [pairCase, pairIdx]

theorem pairG_solves {α : Type} [Field α] (r0 r1 x0 x1 k0 k1 a : α) {l : List α} (hl : l.length = 5) : (pairG r0 r1 x0 x1 k0 k1 a l).Solves (pairCase r0 r1 x0 x1 k0 k1 a) :=
  ⟨pairG_norm _ _ _ _ _ _ _ _, hl, rfl, by simp [pairG, pairCase]⟩

theorem length5 {β : Type} {l : List β} (h : l.length = 5) : ∃ a b c d e, l = [a, b, c, d, e] := by
  rcases l with _ | ⟨a, _ | ⟨b, _ | ⟨c, _ | ⟨d, _ | ⟨e, _ | ⟨x, l⟩⟩⟩⟩⟩⟩ <;> simp at h
  exact ⟨a, b, c, d, e, rfl⟩

end Fixture
open Fixture

/-- The hypotheses of `C63_run_returns`, and so of `C63_run`, are met: two match-ups which no offset can fit, from any starting offset which is not already the best. -/
theorem C63_case {r0 r1 x0 x1 k0 k1 a : ℝ} (h1 : r0 + k0 ≠ r1 + k1) (h2 : 2 * a ≠ r0 + k0 + (r1 + k1)) {o : LsmrOpts ℝ} (hh : 0 < o.huge)
    (minres : GN ℝ Int → List ℝ → Py (List ℝ)) (tol : GNTol ℝ) :
    ∃ res, (pairG r0 r1 x0 x1 k0 k1 a [r0, r1, x0, x1, a]).run (GN.lsmrObject o realSqrt) minres tol false = .ok res ∧
      (pairG r0 r1 x0 x1 k0 k1 a [r0, r1, x0, x1, a]).LsmrSteps 6 5 res.state.niter ([r0, r1, x0, x1, a], none) (res.state.xyza, res.state.solution) ∧ 1 ≤ res.state.niter := by
  have hs := pairG_solves r0 r1 x0 x1 k0 k1 a (l := [r0, r1, x0, x1, a]) rfl
  have hex : ∃ res, (pairG r0 r1 x0 x1 k0 k1 a [r0, r1, x0, x1, a]).run (GN.lsmrObject o realSqrt) minres tol false = .ok res := by
    refine C63_run_returns (pairCase_ready r0 r1 x0 x1 k0 k1 a) (pairCase_named _ _ _ _ _ _ _) hs (by simp [pairG]) hh ?_ ?_ (fun h => by cases h) tol
    · refine ⟨_, _, pairG_calcF _ _ _ _ _ _ _ _ _ _ _ _ _, pairG_getJPTx _ _ _ _ _ _ _ _ _ _ _ _ _ _ _ _ _ _, _, List.mem_of_getElem? (i := 4) rfl, ?_⟩
      intro h0
      apply h2
      simp only [mul_one, div_one, add_zero, zero_add, one_mul] at h0
      linarith
    · intro x f v hx hf hv heq
      obtain ⟨y0, y1, y2, y3, y4, rfl⟩ := length5 hx
      obtain ⟨v0, v1, v2, v3, v4, rfl⟩ := length5 hv
      rw [pairG_calcF] at hf
      cases hf
      have heq' := heq.symm.trans (pairG_getJPx r0 r1 x0 x1 k0 k1 a y0 y1 y2 y3 y4 v0 v1 v2 v3 v4)
      have hl := Except.ok.inj heq'
      simp only [List.map_cons, List.map_nil, List.cons.injEq, mul_one, div_one, add_zero, zero_add, one_mul, mul_zero, zero_mul] at hl
      obtain ⟨e0, e1, _, _, e4, e5, _⟩ := hl
      apply h1
      linarith
  obtain ⟨res, hres⟩ := hex
  obtain ⟨_, _, _, _, _, hn, _⟩ := C32_loop hres
  exact ⟨res, hres, C63_run (pairCase_ready r0 r1 x0 x1 k0 k1 a) hs hh realSqrt_spec hres, hn⟩

/-- **C63, failure: exact data.** Data which the starting parameter fits exactly meet the hypotheses of `C63_stationary_start_fails`: no run returns. -/
theorem C63_exact_data_fails {r0 r1 x0 x1 k0 k1 a : ℝ} (h0 : a = r0 + k0) (h1 : a = r1 + k1) {o : LsmrOpts ℝ} (hh : 0 < o.huge)
    (minres : GN ℝ Int → List ℝ → Py (List ℝ)) (tol : GNTol ℝ) (rc : Bool) :
    ∀ res, (pairG r0 r1 x0 x1 k0 k1 a [r0, r1, x0, x1, a]).run (GN.lsmrObject o realSqrt) minres tol rc ≠ .ok res := by
  refine C63_stationary_start_fails (pairCase_ready r0 r1 x0 x1 k0 k1 a) (pairG_solves r0 r1 x0 x1 k0 k1 a rfl) hh realSqrt_spec
    (pairG_calcF _ _ _ _ _ _ _ _ _ _ _ _ _) (pairG_getJPTx _ _ _ _ _ _ _ _ _ _ _ _ _ _ _ _ _ _) ?_
  intro e he
  have q0 : a - r0 - k0 = 0 := by linarith
  have q1 : a - r1 - k1 = 0 := by linarith
  simp only [mul_one, div_one, sub_self, zero_add, one_mul, mul_zero, q0, q1, add_zero, zero_mul, List.mem_cons, List.not_mem_nil, or_false, or_self] at he
  exact he

namespace Fixture

/-- Two match-ups with unequal uncertainties, and data on both sides of the fit. -/
def seesaw : Evaluable ℚ Int :=
  { pairCase (0 : ℚ) 0 0 0 (-16) 9 0 with
    mu := { (pairCase (0 : ℚ) 0 0 0 (-16) 9 0).mu with unck := [[4, 3]], unc := [{ unc := .independent [3, 9/4], uS_i := none }, { unc := .independent [1, 1], uS_i := none }] } }

def seesawStart : Py (GN ℚ Int) := do
  let nm ← seesaw.normalise
  pure { hd := nm, xyza := nm.mu.values ++ nm.a, S := [[1]] }

def seesawOpts : LsmrOpts ℚ :=
  { damp := 0, atol := 1 / 10 ^ 8, btol := 1 / 10 ^ 8, conlim := 10 ^ 8, itnlim := 0, etol := 1 / 10 ^ 6, window := 5, huge := 10 ^ 100 }

def noMinres : GN ℚ Int → List ℚ → Py (List ℚ) := fun _ _ => .error .valueError

end Fixture

/-- **C63, failure: the solution is found and left.** A run on linear equations with the LSMR solver as coded: the first step reaches the exact minimum (zero gradient, cost 16), where
the same step is made again; the run ends after the maximal number of iterations, not converged, with cost 25. -/
theorem C63_leaves_solution : ∃ (g : GN ℚ Int) (res : GNResult ℚ), seesawStart = .ok g ∧
    g.run (GN.lsmrObject seesawOpts ratSqrt) noMinres ⟨1 / 10 ^ 6, 1 / 10 ^ 3, 1 / 10 ^ 2⟩ false = .ok res ∧ res.state.niter = 4 ∧ res.state.conv = false ∧ res.cost = 25 ∧
    res.state.log.map (fun l : GNLogLine ℚ => (l.reduction, l.normG)) = [(9, 0), (-9, 6), (9, 0), (-9, 6)] := by
  obtain ⟨⟨g, res⟩, h1, h2⟩ := check_ok' (x := (do
      let g ← seesawStart
      let r ← g.run (GN.lsmrObject seesawOpts ratSqrt) noMinres ⟨1 / 10 ^ 6, 1 / 10 ^ 3, 1 / 10 ^ 2⟩ false
      pure (g, r) : Py (GN ℚ Int × GNResult ℚ)))
    (fun p => decide (p.2.state.niter = 4) && !p.2.state.conv && decide (p.2.cost = 25) &&
      decide (p.2.state.log.map (fun l : GNLogLine ℚ => (l.reduction, l.normG)) = [(9, 0), (-9, 6), (9, 0), (-9, 6)])) (by decide +kernel)
  obtain ⟨g', g1, h1⟩ := bind_ok.1 h1
  obtain ⟨r', g2, h1⟩ := bind_ok.1 h1
  rw [pure_ok] at h1
  cases h1
  simp only [Bool.and_eq_true, decide_eq_true_eq, Bool.not_eq_true'] at h2
  exact ⟨g, res, g1, g2, h2.1.1.1, h2.1.1.2, h2.1.2, h2.2⟩

end Verif
