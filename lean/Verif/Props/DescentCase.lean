import Verif.Props.Descent
import Verif.Props.JacobianCase
import Verif.Props.GNKrylovCase
/-
Property C87: concrete cases, and a step which goes downhill and too far.
-/
set_option autoImplicit false
namespace Verif
namespace Fixture

theorem offsetCal_pointwise (c : List ℝ) : (offsetCal : SensorModel ℝ Int).Pointwise 1 c 1 (fun _ a => a.getD 0 0) (fun _ _ j => if j = 0 then 0 else 1) := by
  intro X a xt al t k hX hk _
  obtain ⟨x0, rfl⟩ := List.length_eq_one_iff.1 hX
  have h0 := hk x0 (by simp)
  have em : ∀ f : ℝ, (x0.map fun _ => f) = (List.range k).map fun _ => f := by
    intro f
    apply List.ext_getElem <;> simp +contextual [h0]
  unfold offsetCal
  simp only [List.headD_cons, em]
  rfl

theorem offset_gradient (row a : List ℝ) (hr : row.length = 1) (ha : a.length = 1) : GradientAt (fun _ a => a.getD 0 0) (fun _ _ j => if j = 0 then 0 else 1) row a := by
  intro row' a' h1 h2
  obtain ⟨x0, rfl⟩ := List.length_eq_one_iff.1 hr
  obtain ⟨a0, rfl⟩ := List.length_eq_one_iff.1 ha
  obtain ⟨y0, rfl⟩ := List.length_eq_one_iff.1 h1
  obtain ⟨b0, rfl⟩ := List.length_eq_one_iff.1 h2
  have e : (fun t : ℝ => (along [a0] [b0] t).getD 0 0) = fun t => a0 + t * b0 := rfl
  rw [e]
  refine (((hasDerivAt_id (0 : ℝ)).mul_const b0).const_add a0).congr_deriv ?_
  simp

theorem pairG_smooth {r0 r1 x0 x1 k0 k1 a : ℝ} {l x : List ℝ} (hx : x.length = 5) : ((pairG r0 r1 x0 x1 k0 k1 a l).move x).Smooth (pairCase r0 r1 x0 x1 k0 k1 a) ["B"] [] := by
  have hS : ((pairG r0 r1 x0 x1 k0 k1 a l).move x).Solves (pairCase r0 r1 x0 x1 k0 k1 a) := pairG_solves r0 r1 x0 x1 k0 k1 a hx
  have hready := pairCase_ready r0 r1 x0 x1 k0 k1 a
  obtain ⟨N, n, hs⟩ := hS.setup hready
  intro i k pair hp hk
  rcases i with _ | i
  · cases hp; cases hk
    have hv := hs.facts.vlen
    refine ⟨⟨"A", 1, gnRef, defaultAdjustment, _, fun x => x, fun _ => 1, rfl, rfl, rfl, rfl,
        ready_unconvert hready hs.facts rfl rfl rfl (by rw [hs.xlen]; omega), fun R => by simp [defaultAdjustment], .inr ⟨gnRef_reference _ _, ?_, ?_⟩⟩,
      ⟨"B", 1, offsetCal, defaultAdjustment, _, fun x => x, fun _ => 1, rfl, rfl, rfl, rfl,
        ready_unconvert hready hs.facts rfl rfl rfl (by rw [hs.xlen]; omega), fun R => by simp [defaultAdjustment], .inl ⟨_, _, offsetCal_pointwise _, ?_⟩⟩⟩
    · intro b c u hb hu
      rcases b with _ | _ | b
      · cases hu; rfl
      · cases hb
      · simp [pairCase, pairIdx, Idx.blocks] at hb
    · intro r _
      exact hasDerivAt_id _
    · intro r _
      refine ⟨offset_gradient _ _ (by simp [rowOf]) ?_, hasDerivAt_id _⟩
      obtain ⟨y0, y1, y2, y3, y4, rfl⟩ := length5 hx
      rfl
  · simp [pairCase, pairIdx] at hp

theorem pairG_const {r0 r1 x0 x1 k0 k1 a : ℝ} {l x z : List ℝ} (hl : l.length = 5) (hx : x.length = 5) (hz : z.length = 5) :
    ((pairG r0 r1 x0 x1 k0 k1 a l).move x).getJPx z = (pairG r0 r1 x0 x1 k0 k1 a l).getJPx z := by
  obtain ⟨y0, y1, y2, y3, y4, rfl⟩ := length5 hx
  obtain ⟨v0, v1, v2, v3, v4, rfl⟩ := length5 hz
  obtain ⟨l0, l1, l2, l3, l4, rfl⟩ := length5 hl
  exact (pairG_getJPx r0 r1 x0 x1 k0 k1 a y0 y1 y2 y3 y4 v0 v1 v2 v3 v4).trans (pairG_getJPx r0 r1 x0 x1 k0 k1 a l0 l1 l2 l3 l4 v0 v1 v2 v3 v4).symm

theorem pairG_onto {r0 r1 x0 x1 k0 k1 a : ℝ} {l d : List ℝ} (hd : d.length = 5) : (pairG r0 r1 x0 x1 k0 k1 a l).calcPx false d = .ok d := by
  obtain ⟨y0, y1, y2, y3, y4, rfl⟩ := length5 hd
  have : (pairG r0 r1 x0 x1 k0 k1 a l).calcPx false [y0, y1, y2, y3, y4] = .ok [y0, y1, y2, y3, 1 * y4 + 0] := rfl
  rw [this, one_mul, add_zero]

end Fixture
open Fixture

/-- **C87, a case.** Two match-ups which no offset can fit: the hypotheses of `C87_run`, `C87_downhill` and `C87_linear_models` are met. The run goes through estimates each of which
costs less than the one before it, unless that one was already optimal. -/
theorem C87_case {r0 r1 x0 x1 k0 k1 a : ℝ} (h1 : r0 + k0 ≠ r1 + k1) (h2 : 2 * a ≠ r0 + k0 + (r1 + k1)) {o : LsmrOpts ℝ} (hh : 0 < o.huge)
    (minres : GN ℝ Int → List ℝ → Py (List ℝ)) (tol : GNTol ℝ) :
    ∃ (g : GN ℝ Int) (res : GNResult ℝ) (xs : List (List ℝ × Option (List ℝ))), g = pairG r0 r1 x0 x1 k0 k1 a [r0, r1, x0, x1, a] ∧ g.run (GN.lsmrObject o realSqrt) minres tol false = .ok res ∧
      1 ≤ res.state.niter ∧ xs.length = res.state.niter + 1 ∧ xs.head? = some (g.xyza, none) ∧ xs.getLast? = some (res.state.xyza, res.state.solution) ∧ g.Smooth (pairCase r0 r1 x0 x1 k0 k1 a) ["B"] [] ∧
      (∃ x y, xs[0]? = some x ∧ xs[1]? = some y ∧ g.Descends x.1 y.1) ∧
      ∀ i x y, xs[i]? = some x → xs[i + 1]? = some y →
        (∃ line, res.state.log[i]? = some line ∧ g.Step (GN.lsmrObject o realSqrt) tol x line y) ∧
        ((∃ q q', g.CostAt x.1 q ∧ g.CostAt y.1 q' ∧ q' < q) ∨ ∃ q, g.CostAt x.1 q ∧ g.Optimal (x.1.drop 4) q) := by
  obtain ⟨res, hrun, hst, hn⟩ := C63_case h1 h2 hh minres tol
  have hS := pairG_solves r0 r1 x0 x1 k0 k1 a (l := [r0, r1, x0, x1, a]) rfl
  have hready := pairCase_ready r0 r1 x0 x1 k0 k1 a
  obtain ⟨xs, c1, c2, c3, c5, c4⟩ := C87_run hready hS hh realSqrt_spec hrun
  have hlin : ∀ {x : List ℝ}, x.length = 5 → (pairG r0 r1 x0 x1 k0 k1 a [r0, r1, x0, x1, a]).LinearAt x := fun hx =>
    C87_linear_models hready hS (fun x hx => pairG_smooth hx) (fun x z hx hz => pairG_const rfl hx hz) hx
  refine ⟨_, res, xs, rfl, hrun, hn, c1, c2, c3, pairG_smooth (l := [r0, r1, x0, x1, a]) (x := [r0, r1, x0, x1, a]) rfl, ?_, ?_⟩
  · obtain ⟨x, t, rfl⟩ : ∃ x t, xs = x :: t := by
      cases xs with
      | nil => simp at c1
      | cons x t => exact ⟨x, t, rfl⟩
    obtain ⟨y, t, rfl⟩ : ∃ y t', t = y :: t' := by
      cases t with
      | nil => simp at c1; omega
      | cons y t' => exact ⟨y, t', rfl⟩
    have hx : x = ([r0, r1, x0, x1, a], none) := by simpa [pairG] using c2
    refine ⟨x, y, rfl, rfl, ?_⟩
    rcases (c4 0 x y rfl rfl).2 with h | h
    · exact h
    · exfalso
      subst hx
      obtain ⟨f, grad, e1, e2, e3⟩ := h
      rw [pairG_calcF] at e1; cases e1
      have e2' := e2.symm.trans (pairG_getJPTx r0 r1 x0 x1 k0 k1 a r0 r1 x0 x1 a _ _ _ _ _ _)
      have := e3 _ (by rw [Except.ok.inj e2']; exact List.mem_of_getElem? (i := 4) rfl)
      apply h2
      simp only [mul_one, div_one, add_zero, zero_add, one_mul] at this
      linarith
  · intro i x y hx hy
    have hl : x.1.length = 5 := c5 x (List.mem_of_getElem? hx)
    obtain ⟨h0, h⟩ := c4 i x y hx hy
    refine ⟨h0, ?_⟩
    rcases h with h | h
    · exact .inl (C87_linear_step (hlin hl) h)
    · exact .inr (C87_linear_optimal hready hS hl (hlin hl) h fun d hd => ⟨d, hd, pairG_onto hd⟩)

namespace Fixture

/-- The measurand is a quadratic function of the parameter, whatever the data. -/
def bowlCal : SensorModel ℚ Int := fun X a _ _ _ _ =>
  .ok ((X.headD []).map fun _ => a.getD 0 0 + 2 * a.getD 0 0 * a.getD 0 0, some [(X.headD []).map fun _ => 0, (X.headD []).map fun _ => 1 + 4 * a.getD 0 0])

def bowlIdx : Idx := { pairIdx with parameter_sensor := some ["A", "B"] }

/-- Two match-ups of two sensors which are both calibrated. -/
def bowl : Evaluable ℚ Int :=
  { mu :=
      { idx := bowlIdx, original_idx := bowlIdx, values := [0, 0, 0, 0], ks := [4, 5 / 4], unck := [[1 / 3, 1 / 4]]
        unc := [{ unc := .independent [1, 1], uS_i := none }, { unc := .independent [1, 1], uS_i := none }]
        w_matrices := [], u_matrices := []
        time1 := none, time2 := none, across_track_index1 := none, across_track_index2 := none, along_track_index1 := none, along_track_index2 := none
        additional_values := none }
    a := [0, 0], constant := [], sensor_model := [offsetCal, bowlCal], adjustment_model := [defaultAdjustment, defaultAdjustment] }

def bowlStart : Py (GN ℚ Int) := do
  let nm ← MatchUpS.normalise bowl
  pure { hd := nm, xyza := nm.mu.values ++ nm.a, S := [[3, 0], [0, 4]] }

def bowlFirst (g : GN ℚ Int) (f : List ℚ) : GNState ℚ :=
  { xyza := g.xyza, residuals := f, cost_previous := sqNorm f, cost := none, conv := false, niter := 0, log := [], solution := none }

theorem bowl_ready : bowl.SolverReady ["A", "B"] [] 1 := by
  refine ⟨⟨⟨rfl, rfl, rfl, ?_, ?_⟩, rfl, rfl, rfl, rfl⟩, ⟨rfl, rfl⟩, rfl, rfl, ?_, ⟨rfl, rfl⟩, rfl, rfl, ?_, ?_⟩
  · intro b n hb
    rcases b with _ | _ | b
    · cases hb; exact ⟨le_rfl, 2, rfl, rfl⟩
    · cases hb; exact ⟨le_rfl, 2, rfl, rfl⟩
    · simp [bowl, bowlIdx, pairIdx] at hb
  · intro n h1 h2
    have : n = 1 := by simp [bowl, bowlIdx, pairIdx] at h2; omega
    subst this
    simp [bowl, bowlIdx, pairIdx]
  · intro b n u hu hn
    rcases b with _ | _ | b
    · cases hu; cases hn; exact rfl
    · cases hu; cases hn; exact rfl
    · simp [bowl, bowlIdx, pairIdx] at hn
  · intro p hp
    simp only [bowl, bowlIdx, pairIdx, List.mem_cons, List.not_mem_nil, or_false] at hp
    subst hp
    simp [bowl, bowlIdx, pairIdx]
  · intro i pair hp
    rcases i with _ | i
    · cases hp
      refine ⟨⟨"A", 1, offsetCal, defaultAdjustment, rfl, rfl, rfl, rfl, fun R => ⟨_, _, rfl, rfl, by simp⟩, le_rfl, rfl, .inl ⟨?_, rfl, by simp⟩⟩,
        ⟨"B", 1, bowlCal, defaultAdjustment, rfl, rfl, rfl, rfl, fun R => ⟨_, _, rfl, rfl, by simp⟩, le_rfl, rfl, .inl ⟨?_, rfl, by simp⟩⟩⟩
      · intro X a' xt al t n hX hn _
        obtain ⟨x0, rfl⟩ := List.length_eq_one_iff.1 hX
        have h0 := hn x0 (by simp)
        refine ⟨_, _, rfl, by simpa using h0, rfl, ?_⟩
        intro col hcol
        simp only [List.headD_cons, List.mem_cons, List.not_mem_nil, or_false] at hcol
        rcases hcol with rfl | rfl <;> simp [h0]
      · intro X a' xt al t n hX hn _
        obtain ⟨x0, rfl⟩ := List.length_eq_one_iff.1 hX
        have h0 := hn x0 (by simp)
        refine ⟨_, _, rfl, by simpa using h0, rfl, ?_⟩
        intro col hcol
        simp only [List.headD_cons, List.mem_cons, List.not_mem_nil, or_false] at hcol
        rcases hcol with rfl | rfl <;> simp [h0]
    · simp [bowl, bowlIdx, pairIdx] at hp

end Fixture

/-- **C87, failure: a step goes too far.** The algorithm takes the whole step. With a quadratic model, the first step of a run goes downhill at its beginning, and more than doubles the
cost. -/
theorem C87_overshoots : bowl.SolverReady ["A", "B"] [] 1 ∧ ∃ (g : GN ℚ Int) (line : GNLogLine ℚ) (y : List ℚ × Option (List ℚ)), bowlStart = .ok g ∧ g.Solves bowl ∧
    g.Step (GN.lsmrObject seesawOpts ratSqrt) ⟨1 / 10 ^ 6, 1 / 10 ^ 3, 1 / 10 ^ 2⟩ (g.xyza, none) line y ∧ g.Descends g.xyza y.1 ∧ g.CostAt g.xyza 169 ∧
    ∃ q, g.CostAt y.1 q ∧ 400 < q := by
  refine ⟨bowl_ready, ?_⟩
  obtain ⟨⟨g, f, grad, st⟩, h1, h2⟩ := check_ok' (x := (do
      let g ← bowlStart
      let f ← g.calcF g.xyza
      let grad ← g.getJPTx f
      let st ← g.iterate (GN.lsmrObject seesawOpts ratSqrt) ⟨1 / 10 ^ 6, 1 / 10 ^ 3, 1 / 10 ^ 2⟩ (bowlFirst g f)
      pure (g, f, grad, st) : Py (GN ℚ Int × List ℚ × List ℚ × GNState ℚ)))
    (fun p => decide (dotp p.2.1 p.2.1 = 169) && decide (400 < dotp p.2.2.2.residuals p.2.2.2.residuals) && decide (p.1.hd.mu.values.length = 4) && p.2.2.1.any (fun e => decide (e ≠ 0))) (by decide +kernel)
  obtain ⟨g', g1, h1⟩ := bind_ok.1 h1
  obtain ⟨f', g2, h1⟩ := bind_ok.1 h1
  obtain ⟨grad', g4, h1⟩ := bind_ok.1 h1
  obtain ⟨s', g3, h1⟩ := bind_ok.1 h1
  rw [pure_ok] at h1
  cases h1
  simp only [Bool.and_eq_true, decide_eq_true_eq] at h2
  obtain ⟨⟨⟨b1, b2⟩, b3⟩, b4⟩ := h2
  have hS : g.Solves bowl := by
    unfold bowlStart at g1
    obtain ⟨nm, n1, n2⟩ := bind_ok.1 g1
    rw [pure_ok] at n2
    subst n2
    have ha : nm.a = [0, 0] := by
      obtain ⟨nm', m1, m2⟩ := bind_ok.1 n1
      rw [pure_ok] at m2
      subst m2
      rfl
    exact ⟨n1, by simp, by simp [ha], by simp [ha]⟩
  obtain ⟨hgood, line, hl, hstep⟩ := GN.iterate_spec (st := bowlFirst g f) ⟨g2, sqNorm_dotp f, rfl, ⟨fun _ => rfl, fun h => absurd rfl h⟩, by simp [bowlFirst]⟩ g3
  refine ⟨g, line, (st.xyza, st.solution), g1, hS, hstep, ?_, ⟨f, g2, b1.symm⟩, _, ⟨st.residuals, hgood.res, rfl⟩, b2⟩
  have hls := lsmrStep_ok bowl_ready hS (by omega) (o := seesawOpts) (by norm_num [seesawOpts]) ratSqrt_spec hS.xyza (fun w hw => by cases hw) hstep
  rcases LsmrStep.descends hls hS.xyza with h | ⟨f', grad', e1, e2, e3⟩
  · exact h
  · exfalso
    have e1' : g.calcF g.xyza = .ok f' := e1
    rw [g2] at e1'; cases e1'
    have e2' : g.getJPTx f = .ok grad' := e2
    rw [g4] at e2'; cases e2'
    obtain ⟨e, he, hne⟩ := List.any_eq_true.1 b4
    exact (of_decide_eq_true hne) (e3 e he)

end Verif
