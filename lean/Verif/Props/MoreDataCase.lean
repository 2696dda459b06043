import Verif.Props.MoreData
import Verif.Props.OrderCovCase
/-
Property C94: a concrete case.
-/
set_option autoImplicit false
namespace Verif
namespace Fixture

def lessIdx : Idx :=
  { Nm := [1], cNm := [0, 1], Im := [(0, 1)], sensors := ["A", "B"], sensor_ms := [1, 1], n_sensor := [0, 1], n_mu := [1, 1]
    n_cov := [1, 1], N_var := [1, 1], idx := [0, 1, 2], additional_values_name := some [], parameter_sensor := some ["B"], constant_sensor := some [] }

def lessCase {α : Type} [Field α] (v0 v1 k0 : α) : Evaluable α Int :=
  { mu :=
      { idx := lessIdx, original_idx := lessIdx, values := [v0, v1], ks := [k0], unck := [[1]]
        unc := List.replicate 2 { unc := .independent [1], uS_i := none }
        w_matrices := [], u_matrices := []
        time1 := some [0], time2 := some [0], across_track_index1 := none, across_track_index2 := none, along_track_index1 := none, along_track_index2 := none
        additional_values := some [] }
    a := [2], constant := [], sensor_model := [gnRef, offsetCal], adjustment_model := [defaultAdjustment, defaultAdjustment] }

def lessG {α : Type} [Field α] (v0 v1 k0 : α) (xyza : List α) : GN α Int :=
  { hd := { lessCase v0 v1 k0 with mu := { (lessCase v0 v1 k0).mu with values := [v0 / 1, v1 / 1], ks := [k0 / 1], time1 := none, time2 := none, additional_values := none } }
    xyza := xyza, S := [[1]] }

theorem less_opens {α : Type} [Field α] [DecidableEq α] (a1 b1 k1 : α) :
    openMatchUpWith cenv defaultAdjustment [oneFile (oneSide "A" a1) (oneSide "B" b1) k1] offsetModels = .ok (lessCase a1 b1 k1) := by kernel_rfl

theorem lessG_norm {α : Type} [Field α] (v0 v1 k0 : α) (l : List α) : (lessCase v0 v1 k0).normalise = .ok (lessG v0 v1 k0 l).hd := by kernel_rfl

theorem less_kOf (v0 v1 k0 w0 w1 b : ℝ) : (lessCase v0 v1 k0).kOf [w0, w1] [b] = .ok [b - w0] := by kernel_rfl

theorem lessG_getJPx {α : Type} [Field α] (v0 v1 k0 y0 y1 y2 z0 z1 z2 : α) : (lessG v0 v1 k0 [y0, y1, y2]).getJPx [z0, z1, z2] =
    .ok [z0, z1, (0 + ((-1) * 1) * z0 * 1 / 1) + (1 * 1) * 0 * z1 * 1 / 1 + (1 * (1 / 1 * 1 * (1 * z2 + 0) + 0))] := by
  kernel_rfl

theorem less3 {l : List ℝ} (hl : l.length = 3) : ∃ y0 y1 y2, l = [y0, y1, y2] := by
  match l, hl with
  | [y0, y1, y2], _ => exact ⟨y0, y1, y2, rfl⟩

theorem lessG_solves (v0 v1 k0 : ℝ) {l : List ℝ} (hl : l.length = 3) : (lessG v0 v1 k0 l).Solves (lessCase v0 v1 k0) :=
  ⟨lessG_norm _ _ _ _, by simpa [lessG, lessCase] using hl, rfl, by simp [lessG, lessCase]⟩

theorem lessG_inj (v0 v1 k0 : ℝ) {l : List ℝ} (hl : l.length = 3) : ∀ x : List ℝ, x.length = 2 + 1 →
    (lessG v0 v1 k0 l).getJPx x = .ok (List.replicate (2 + 1) 0) → x = List.replicate x.length 0 := by
  obtain ⟨y0, y1, y2, rfl⟩ := less3 hl
  intro x hx h0
  obtain ⟨z0, z1, z2, rfl⟩ := less3 hx
  have h0' := h0.symm.trans (lessG_getJPx v0 v1 k0 y0 y1 y2 z0 z1 z2)
  simp only [List.replicate, Except.ok.injEq, List.cons.injEq, and_true] at h0'
  obtain ⟨e0, e1, e2⟩ := h0'
  subst e0; subst e1
  norm_num at e2
  subst e2
  rfl

theorem lessG_smooth {v0 v1 k0 : ℝ} {l : List ℝ} (hl : l.length = 3) (hready : (lessCase v0 v1 k0).SolverReady ["B"] [] 1) :
    (lessG v0 v1 k0 l).Smooth (lessCase v0 v1 k0) ["B"] [] := by
  have hS := lessG_solves v0 v1 k0 hl
  obtain ⟨N, n, hs⟩ := hS.setup hready
  obtain ⟨y0, y1, y2, rfl⟩ := less3 hl
  intro i k pair hp hk
  rcases i with _ | i
  · cases hp; cases hk
    exact ⟨by
      refine ⟨"A", 1, gnRef, defaultAdjustment, _, fun x => x, fun _ => 1, rfl, rfl, rfl, rfl,
        ready_unconvert hready hs.facts rfl rfl rfl (by rw [hs.xlen]; omega), fun R => by simp [defaultAdjustment], .inr ⟨gnRef_reference _ _, ?_, fun r _ => hasDerivAt_id _⟩⟩
      intro b c u hb hu
      have hb4 : u ∈ List.replicate 2 ({ unc := .independent [1], uS_i := none } : UncBlock ℝ) := List.mem_of_getElem? hu
      rw [(List.mem_replicate.1 hb4).2]
      rfl, by
      refine ⟨"B", 1, offsetCal, defaultAdjustment, _, fun x => x, fun _ => 1, rfl, rfl, rfl, rfl,
        ready_unconvert hready hs.facts rfl rfl rfl (by rw [hs.xlen]; omega), fun R => by simp [defaultAdjustment], .inl ⟨_, _, offsetCal_pointwise _, ?_⟩⟩
      intro r _
      exact ⟨offset_gradient _ _ (by simp [rowOf]) rfl, hasDerivAt_id _⟩⟩
  · simp [lessCase, lessIdx] at hp

theorem less_solvable (a1 b1 k1 : ℝ) : SolvableFiles [ordF1 a1 b1 k1] (offsetModels : SensorData ℝ (SensorModel ℝ Int) (AdjModel ℝ)) 1 := by
  have hf := ord_solvable a1 b1 k1 b1 a1 k1
  have hm : ∀ d ∈ [ordF1 a1 b1 k1], d ∈ [ordF1 a1 b1 k1, ordF2 b1 a1 k1] := by
    intro d hd
    simp only [List.mem_cons, List.not_mem_nil, or_false] at hd ⊢
    exact .inl hd
  exact ⟨⟨fun d hd => hf.consistent.1 d (hm d hd), fun d hd e he => hf.consistent.2 d (hm d hd) e (hm e he)⟩, hf.keys, fun d hd => hf.columns d (hm d hd),
    ⟨_, List.mem_cons_self, _, .inl rfl, rfl⟩, fun d hd => hf.matrices d (hm d hd), fun d hd => hf.sensors d (hm d hd)⟩

theorem less_ready (a1 b1 k1 : ℝ) : (lessCase a1 b1 k1).SolverReady ["B"] [] 1 := by
  obtain ⟨l, c, h⟩ := opened_solverReady cenv_enum (less_solvable a1 b1 k1) (less_opens a1 b1 k1)
  have e1 : some ["B"] = some l := h.parameters.1
  have e2 : some [] = some c := h.constants
  have e3 := Option.some.inj e1
  have e4 := Option.some.inj e2
  subst e3 e4
  exact h

theorem less_derivatives (v0 v1 k0 w0 w1 b : ℝ) : (lessCase v0 v1 k0).KDerivatives [w0, w1] [b] (fun _ c _ => if c = 0 then -1 else 0) (fun _ _ => 1) := by
  intro dv da hdv hda
  obtain ⟨d0, d1, rfl⟩ : ∃ d0 d1, dv = [d0, d1] := by
    match dv, hdv with
    | [d0, d1], _ => exact ⟨d0, d1, rfl⟩
  obtain ⟨e, rfl⟩ := List.length_eq_one_iff.1 hda
  refine ⟨fun t => [(b + t * e) - (w0 + t * d0)], fun t => less_kOf _ _ _ _ _ _, ?_⟩
  intro i hi
  rcases i with _ | i
  · refine ((affine_deriv b e).fun_sub (affine_deriv w0 d0)).congr_deriv ?_
    simp [MatchUp.pairing, MatchUp.numBlocks, MatchUp.blockLen, MatchUp.elem, lessCase, lessIdx, Finset.sum_range_succ]
    ring
  · simp [lessCase] at hi

end Fixture
open Fixture

/-- **C94, a case.** A file with a match-up of a reference A with B, alone and together with a file with one of B with A: all hypotheses of `C94_covariance_partial` are met at corresponding
estimates, and the variance reported for both files is at most the one reported for the first. -/
theorem C94_case (a1 b1 k1 b2 a2 k2 y0 y1 y2 y3 y4 : ℝ) : ∃ (ms ms' : Evaluable ℝ Int) (g g' : GN ℝ Int) (est est' : Evaluable ℝ Int) (minres : GN ℝ Int → List ℝ → Py (List ℝ))
    (V V' : List (List ℝ)), openMatchUpWith cenv defaultAdjustment [ordF1 a1 b1 k1, ordF2 b2 a2 k2] offsetModels = .ok ms ∧
    openMatchUpWith cenv defaultAdjustment [ordF1 a1 b1 k1] offsetModels = .ok ms' ∧ ms.mu.ks.length = 2 ∧ ms'.mu.ks.length = 1 ∧
    SomeOf [ordF1 a1 b1 k1, ordF2 b2 a2 k2] [ordF1 a1 b1 k1] id ∧ NoNewSensor [ordF1 a1 b1 k1, ordF2 b2 a2 k2] [ordF1 a1 b1 k1] ∧ ms.mu.Normalisable ∧ ms'.mu.Normalisable ∧
    g.Solves ms ∧ g'.Solves ms' ∧ g.xyza = [y0, y1, y2, y3, y4] ∧ g.EstimateIs est ∧ g'.EstimateIs est' ∧
    SameEstimates [ordF1 a1 b1 k1, ordF2 b2 a2 k2] [ordF1 a1 b1 k1] id ms.mu ms'.mu est.mu.values est'.mu.values ∧
    g.covariance minres = .ok V ∧ g'.covariance minres = .ok V' ∧ (V.getD 0 []).getD 0 0 ≤ (V'.getD 0 []).getD 0 0 := by
  classical
  have hf := ord_solvable a1 b1 k1 b2 a2 k2
  have hf' := less_solvable a1 b1 k1
  have h : openMatchUpWith cenv defaultAdjustment [ordF1 a1 b1 k1, ordF2 b2 a2 k2] offsetModels = .ok _ := ord_opens a1 b1 a2 b2 k1 k2
  have h' : openMatchUpWith cenv defaultAdjustment [ordF1 a1 b1 k1] offsetModels = .ok _ := less_opens a1 b1 k1
  have hr := (ord_ready a1 b1 k1 b2 a2 k2).1
  have hr' := less_ready a1 b1 k1
  have hσ : SomeOf [ordF1 a1 b1 k1, ordF2 b2 a2 k2] [ordF1 a1 b1 k1] id := by
    refine ⟨?_, fun i j _ _ h => h, ?_⟩
    · intro i hi
      have hi' : i < 1 := hi
      show i < 2
      omega
    · intro i hi
      have hi' : i < 1 := hi
      have : i = 0 := by omega
      subst this
      rfl
  have hnew : NoNewSensor [ordF1 a1 b1 k1, ordF2 b2 a2 k2] [ordF1 a1 b1 k1] := by
    intro d hd s hs
    simp only [List.mem_cons, List.not_mem_nil, or_false] at hd
    refine ⟨_, List.mem_cons_self, ?_⟩
    rcases hd with rfl | rfl <;> rcases hs with rfl | rfl
    · exact ⟨_, .inl rfl, rfl⟩
    · exact ⟨_, .inr rfl, rfl⟩
    · exact ⟨_, .inr rfl, rfl⟩
    · exact ⟨_, .inl rfl, rfl⟩
  have hn : (ordCase ["A", "B"] [gnRef, offsetCal] [a1, b1, b2, a2] k1 k2).mu.Normalisable := by
    refine ⟨hr.wf, rfl, rfl, ?_, ?_⟩
    · intro b n u hu hb
      have hb4 : u ∈ List.replicate 4 ({ unc := .independent [1], uS_i := none } : UncBlock ℝ) := List.mem_of_getElem? hu
      have hn1 : n ∈ List.replicate 4 1 := List.mem_of_getElem? hb
      rw [(List.mem_replicate.1 hb4).2, (List.mem_replicate.1 hn1).2]
      exact .inl ⟨[1], rfl, by simp, .inl rfl⟩
    · simp [ordCase]
  have hn' : (lessCase a1 b1 k1).mu.Normalisable := by
    refine ⟨hr'.wf, rfl, rfl, ?_, ?_⟩
    · intro b n u hu hb
      have hb4 : u ∈ List.replicate 2 ({ unc := .independent [1], uS_i := none } : UncBlock ℝ) := List.mem_of_getElem? hu
      have hn1 : n ∈ List.replicate 2 1 := List.mem_of_getElem? hb
      rw [(List.mem_replicate.1 hb4).2, (List.mem_replicate.1 hn1).2]
      exact .inl ⟨[1], rfl, by simp, .inl rfl⟩
    · simp [lessCase]
  have hg := ordG_solves a1 b1 b2 a2 k1 k2 (l := [y0, y1, y2, y3, y4]) rfl
  have hg0 := lessG_solves a1 b1 k1 (l := [y0, y1, y4]) rfl
  obtain ⟨N, n, hs⟩ := hg.setup hr
  obtain ⟨t1, t2, t3⟩ := hs.sizes
  obtain ⟨est, hest0, _⟩ := estimate_ok hs hs.xlen
  have hest : (ordG ["A", "B"] [gnRef, offsetCal] [a1, b1, b2, a2] k1 k2 [y0, y1, y2, y3, y4]).EstimateIs est := by
    unfold GN.EstimateIs
    rw [t1, t3]
    exact hest0
  obtain ⟨x, est', hg', hest', hsame, hpar⟩ := C94_corresponding cenv_enum hσ hnew hf hf' h h' hn hn' hg hg0 hest
  have hxl : x.length = 3 := hg'.xyza
  have hg'' : ({ lessG a1 b1 k1 [y0, y1, y4] with xyza := x } : GN ℝ Int) = lessG a1 b1 k1 x := rfl
  rw [hg''] at hg' hest'
  let minres : GN ℝ Int → List ℝ → Py (List ℝ) := fun g b => if h : ∃ z, z.length = b.length ∧ g.calcHx z = .ok b then .ok h.choose else .error .nonFinite
  have hsolve : ∀ b, b.length = 5 → ∃ z, minres (ordG ["A", "B"] [gnRef, offsetCal] [a1, b1, b2, a2] k1 k2 [y0, y1, y2, y3, y4]) b = .ok z ∧ z.length = b.length ∧
      (ordG ["A", "B"] [gnRef, offsetCal] [a1, b1, b2, a2] k1 k2 [y0, y1, y2, y3, y4]).calcHx z = .ok b := by
    intro b hb
    have h := (C31_solvable hr hg (ordG_inj a1 b1 b2 a2 k1 k2 (l := [y0, y1, y2, y3, y4]) rfl) b hb).exists
    exact ⟨h.choose, dif_pos h, h.choose_spec⟩
  have hsolve' : ∀ b, b.length = 3 → ∃ z, minres (lessG a1 b1 k1 x) b = .ok z ∧ z.length = b.length ∧ (lessG a1 b1 k1 x).calcHx z = .ok b := by
    intro b hb
    have h := (C31_solvable hr' hg' (lessG_inj a1 b1 k1 hxl) b hb).exists
    exact ⟨h.choose, dif_pos h, h.choose_spec⟩
  have hSm : ∀ v : List ℝ, v.length = 1 → matTVec ([[1]] : List (List ℝ)) v = .ok (List.replicate 1 0) → v = List.replicate 1 0 := by
    intro v hv h0
    obtain ⟨v0, rfl⟩ := List.length_eq_one_iff.1 hv
    have e : matTVec [[1]] [v0] = .ok [1 * v0 + 0] := rfl
    have := h0.symm.trans e
    simp at this
    subst this
    rfl
  obtain ⟨l1, _⟩ := estimate_lengths hr' hn' hg' hest'
  have hid : ∀ B A, (lessCase a1 b1 k1).KDerivatives est'.mu.values (x.drop 2) B A → Identifies A 1 1 := by
    intro B A hBA
    obtain ⟨w0, w1, hw⟩ : ∃ w0 w1, est'.mu.values = [w0, w1] := by
      have hl : est'.mu.values.length = 2 := l1
      match est'.mu.values, hl with
      | [w0, w1], _ => exact ⟨w0, w1, rfl⟩
    obtain ⟨x0, x1, x2, rfl⟩ := less3 hxl
    rw [hw] at hBA
    have := (C88_unique (i := 0) rfl hBA (less_derivatives a1 b1 k1 w0 w1 x2) (show 0 < 1 by omega)).2 0 (show 0 < 1 by omega)
    intro d hd j hj
    have h0 := hd 0 (by omega)
    have : j = 0 := by omega
    subst this
    simp only [Finset.sum_range_one] at h0
    rw [‹A 0 0 = _›] at h0
    simpa using h0
  obtain ⟨_, V, V', v1, v1', v2, _⟩ := C94_covariance_partial cenv_enum hσ hnew hf hf' h h' hn hn' hr hr' hg hg' (ordG_smooth rfl hr) (lessG_smooth hxl hr') hest hest' hsame hpar hid hSm hSm
    minres hsolve hsolve'
  exact ⟨_, _, _, _, est, est', minres, V, V', h, h', rfl, rfl, hσ, hnew, hn, hn', hg, hg', rfl, hest, hest', hsame, v1, v1', v2 0 (show 0 < 1 by omega)⟩
end Verif
