import Verif.Props.PCRun
import Verif.Props.GNKrylovCase
import Verif.Props.MinresCase
import Verif.Props.JacobianCase
/-
C59: a concrete run of the preconditioner.
-/
set_option autoImplicit false
namespace Verif
namespace Fixture

/-- Two match-ups of a reference A with a calibrated sensor B whose measurand is its parameter. -/
def glsCase {α : Type} [Field α] (q0 q1 u0 u1 k0 k1 a : α) : Evaluable α Int :=
  { mu :=
      { idx := pairIdx, original_idx := pairIdx, values := [0, 0, 0, 0], ks := [k0, k1], unck := [[q0, q1]]
        unc := [{ unc := .independent [u0, u1], uS_i := none }, { unc := .independent [1, 1], uS_i := none }]
        w_matrices := [], u_matrices := []
        time1 := none, time2 := none, across_track_index1 := none, across_track_index2 := none, along_track_index1 := none, along_track_index2 := none
        additional_values := none }
    a := [a], constant := [], sensor_model := [gnRef, offsetCal], adjustment_model := [defaultAdjustment, defaultAdjustment] }

theorem glsCase_ready {α : Type} [Field α] (q0 q1 u0 u1 k0 k1 a : α) : (glsCase q0 q1 u0 u1 k0 k1 a).SolverReady ["B"] [] 1 := by
  refine ⟨⟨⟨rfl, rfl, rfl, ?_, ?_⟩, rfl, rfl, rfl, rfl⟩, ⟨rfl, rfl⟩, rfl, rfl, ?_, ⟨rfl, rfl⟩, rfl, rfl, ?_, ?_⟩
  · intro b n hb
    rcases b with _ | _ | b
    · cases hb; exact ⟨le_rfl, 2, rfl, rfl⟩
    · cases hb; exact ⟨le_rfl, 2, rfl, rfl⟩
    · simp [glsCase, pairIdx] at hb
  · intro n h1 h2
    have : n = 1 := by simp [glsCase, pairIdx] at h2; omega
    subst this
    simp [glsCase, pairIdx]
  · intro b n u hu hn
    rcases b with _ | _ | b
    · cases hu; cases hn; exact rfl
    · cases hu; cases hn; exact rfl
    · simp [glsCase, pairIdx] at hn
  · intro p hp
    simp only [glsCase, pairIdx, List.mem_cons, List.not_mem_nil, or_false] at hp
    subst hp
    simp [glsCase, pairIdx]
  · intro i pair hp
    rcases i with _ | i
    · cases hp
      refine ⟨⟨"A", 1, gnRef, defaultAdjustment, rfl, rfl, rfl, rfl, fun R => ⟨_, _, rfl, rfl, by simp⟩, le_rfl, rfl, .inr ⟨gnRef_reference _ _, ?_⟩⟩,
        ⟨"B", 1, offsetCal, defaultAdjustment, rfl, rfl, rfl, rfl, fun R => ⟨_, _, rfl, rfl, by simp⟩, le_rfl, rfl, .inl ⟨?_, rfl, by simp⟩⟩⟩
      · intro b c u hb hu
        rcases b with _ | _ | b
        · cases hu; exact .inl rfl
        · cases hb
        · simp [glsCase, pairIdx, Idx.blocks] at hb
      · intro X a' xt al t n hX hn _
        obtain ⟨x0, rfl⟩ := List.length_eq_one_iff.1 hX
        have h0 := hn x0 (by simp)
        refine ⟨_, _, rfl, by simpa using h0, rfl, ?_⟩
        intro col hcol
        simp only [List.mem_cons, List.not_mem_nil, or_false] at hcol
        rcases hcol with rfl | rfl <;> simp [h0]
    · simp [glsCase, pairIdx] at hp

theorem glsCase_timeless {α : Type} [Field α] (q0 q1 u0 u1 k0 k1 a : α) : (glsCase q0 q1 u0 u1 k0 k1 a).IgnoresTimes ["B"] [] := by
  intro i s q pair name f hp hs hn hq hf X a' xt al t k _ _ _
  rcases s with _ | _ | s
  · cases hf; rfl
  · cases hf; rfl
  · simp [glsCase] at hf

/-- Routines that answer the one question they are asked in the run below, and fail otherwise. -/
def glsRoutines : PCRoutines ℚ where
  chol M := if M = [[25/9, 0], [0, 25/9]] then .ok [[5/3, 0], [0, 5/3]] else .error .valueError
  solve L d := if L = [[5/3, 0], [0, 5/3]] ∧ d.length = 2 then .ok (d.map (· * (3/5))) else .error .valueError
  lsq f a J _ := do
    let y ← f [9]
    let C ← J [9]
    if a.length = 1 ∧ ∀ c ∈ C, dotp c y = 0 then .ok ([9], [9]) else .error .valueError
  sqrt := ratSqrt
  qrR J := if J = [[1/15, 1/20]] then .ok [[1/12], [0]] else .error .valueError
  lstsq R B := if R = [[1/12]] ∧ B = [[1]] then .ok [[12]] else .error .valueError

theorem glsRoutines_sound : glsRoutines.Sound := by
  refine ⟨?_, ?_, ?_, ratSqrt_spec, ?_, ?_⟩
  · intro M L n hM h
    simp only [glsRoutines] at h
    split_ifs at h with hc
    cases h; subst hc
    obtain rfl : n = 2 := by have := hM.1; simp at this; omega
    refine ⟨⟨rfl, by simp⟩, ?_⟩
    ext i j
    fin_cases i <;> fin_cases j <;> simp [rowsMat, Matrix.mul_apply, entry, Fin.sum_univ_two] <;> norm_num
  · intro L d y n hL hd h
    simp only [glsRoutines] at h
    split_ifs at h with hc
    cases h
    obtain ⟨rfl, hd2⟩ := hc
    obtain rfl : n = 2 := by omega
    obtain ⟨d0, d1, rfl⟩ := List.length_eq_two.1 hd2
    refine ⟨rfl, ?_⟩
    funext i
    fin_cases i <;> simp [rowsMat, listVec, Matrix.mulVec, dotProduct, entry, Fin.sum_univ_two] <;> ring
  · intro f a J tol r h
    simp only [glsRoutines] at h
    obtain ⟨y, -, h⟩ := bind_ok.1 h
    obtain ⟨C, -, h⟩ := bind_ok.1 h
    split_ifs at h with hc
    cases h
    exact ⟨hc.1.symm, hc.1.symm⟩
  · intro J R m n hn hm h
    simp only [glsRoutines] at h
    split_ifs at h with hc
    cases h; subst hc
    obtain rfl : n = 1 := by simpa using hn.symm
    obtain rfl : m = 2 := by simpa using (hm _ (List.mem_singleton_self _)).symm
    refine ⟨rfl, by simp, ?_, ?_⟩
    · intro i j hij
      rcases i with _ | _ | i
      · omega
      · obtain rfl : j = 0 := by omega
        rfl
      · simp [entry]
    · ext i j
      fin_cases i; fin_cases j
      simp [rowsMat, colsMat, Matrix.mul_apply, entry, Fin.sum_univ_two]; norm_num
  · intro R B U n hR hB h
    simp only [glsRoutines] at h
    split_ifs at h with hc
    cases h
    obtain ⟨rfl, rfl⟩ := hc
    obtain rfl : n = 1 := by simpa using hB.1.symm
    refine ⟨rfl, ⟨rfl, by simp⟩, ?_⟩
    ext i j
    fin_cases i; fin_cases j
    simp [rowsMat, Matrix.mul_apply, entry]

theorem glsRoutines_stationary : glsRoutines.Stationary := by
  intro f a J tol r h
  simp only [glsRoutines] at h
  obtain ⟨y, hy, h⟩ := bind_ok.1 h
  obtain ⟨C, hC, h⟩ := bind_ok.1 h
  split_ifs at h with hc
  cases h
  exact ⟨y, C, hy, hC, hc.2⟩

end Fixture

/-- Two match-ups with unequal uncertainties of K and of the reference: the hypotheses of the theorems above are met, with routines that keep their contracts, and the run
returns the weighted mean of the two values of K and its variance. -/
theorem C59_case : ∃ (p : PC ℚ Int) (q : PC ℚ Int),
    (Fixture.glsCase (9 : ℚ) 12 12 16 0 25 0).normalise = .ok p.hd ∧ p.xyza.length = p.hd.mu.values.length + p.hd.a.length ∧
    (Fixture.glsCase (9 : ℚ) 12 12 16 0 25 0).SolverReady ["B"] [] 1 ∧ (Fixture.glsCase (9 : ℚ) 12 12 16 0 25 0).IgnoresTimes ["B"] [] ∧
    (∀ u ∈ (Fixture.glsCase (9 : ℚ) 12 12 16 0 25 0).mu.unc, u.unc.typeID = 1 ∨ u.unc.typeID = 2) ∧
    Fixture.glsRoutines.Sound ∧ Fixture.glsRoutines.Stationary ∧ p.hd.a = [0] ∧ p.run Fixture.glsRoutines (1 / 10 ^ 6) = .ok ([9], [[144]], q) ∧
    ∃ k, p.calcFJ [9] = .ok (k, [[1 / 9, 1 / 12]]) := by
  obtain ⟨hd, h1, h2⟩ := Fixture.check_ok' (x := (Fixture.glsCase (9 : ℚ) 12 12 16 0 25 0).normalise)
    (fun hd => decide ((PC.init hd).xyza.length = (PC.init hd).hd.mu.values.length + (PC.init hd).hd.a.length) && decide ((PC.init hd).hd.a = [0]) &&
      ((PC.init hd).run Fixture.glsRoutines (1 / 10 ^ 6)).toOption.any (fun (r : List ℚ × List (List ℚ) × PC ℚ Int) => decide (r.1 = [9]) && decide (r.2.1 = [[144]])) &&
      ((PC.init hd).calcFJ [9]).toOption.any (fun (r : List ℚ × List (List ℚ)) => decide (r.2 = [[1 / 9, 1 / 12]]))) (by decide +kernel)
  simp only [Bool.and_eq_true, decide_eq_true_eq, Option.any_eq_true] at h2
  obtain ⟨⟨⟨ha, hb⟩, ⟨a, V, q⟩, hr, hr1, hr2⟩, ⟨k, Ja⟩, hk, hk2⟩ := h2
  have key : ∀ {β : Type} {x : Py β} {y : β}, x.toOption = some y → x = .ok y := by
    intro β x y h
    cases x with
    | error e => cases h
    | ok z => cases h; rfl
  simp only at hr1 hr2 hk2
  subst hr1 hr2 hk2
  refine ⟨PC.init hd, q, h1, ha, Fixture.glsCase_ready _ _ _ _ _ _ _, Fixture.glsCase_timeless _ _ _ _ _ _ _, ?_, Fixture.glsRoutines_sound,
    Fixture.glsRoutines_stationary, hb, key hr, k, key hk⟩
  intro u hu
  simp only [Fixture.glsCase, List.mem_cons, List.not_mem_nil, or_false] at hu
  rcases hu with rfl | rfl <;> exact .inl rfl

namespace Fixture

/-- `realCase` with an independent uncertainty for the last covariate. -/
noncomputable def pcReal : Evaluable ℝ Int :=
  { realCase with mu := { realCase.mu with
      unc := [{ unc := .independent [1, 2], uS_i := none }, { unc := .systematic [2, 1] [3, 5], uS_i := some 1 }, { unc := .independent [1, 3], uS_i := none }]
      w_matrices := []
      u_matrices := [] } }

theorem pcReal_ready : pcReal.SolverReady ["B", "B"] [] 2 := by
  refine ⟨⟨⟨rfl, rfl, rfl, ?_, ?_⟩, rfl, rfl, rfl, rfl⟩, ⟨rfl, rfl⟩, rfl, rfl, ?_, ⟨rfl, rfl⟩, rfl, rfl, ?_, ?_⟩
  · intro b n hb
    rcases b with _ | _ | _ | b
    · cases hb; exact ⟨le_rfl, 2, rfl, rfl⟩
    · cases hb; exact ⟨le_rfl, 2, rfl, rfl⟩
    · cases hb; exact ⟨le_rfl, 2, rfl, rfl⟩
    · simp [pcReal, realCase, realIdx] at hb
  · intro n h1 h2
    have : n = 1 := by simp [pcReal, realCase, realIdx] at h2; omega
    subst this
    simp [pcReal, realCase, realIdx]
  · intro b n u hu hn
    rcases b with _ | _ | _ | b
    · cases hu; cases hn; exact rfl
    · cases hu; cases hn; exact ⟨rfl, rfl, 1, rfl, le_rfl⟩
    · cases hu; cases hn; exact rfl
    · simp [pcReal, realCase, realIdx] at hn
  · intro p hp
    simp only [pcReal, realCase, realIdx, List.mem_cons, List.not_mem_nil, or_false] at hp
    subst hp
    simp [pcReal, realCase, realIdx]
  · intro i pair hp
    rcases i with _ | i
    · cases hp
      refine ⟨⟨"A", 1, gnRef, adjSq, rfl, rfl, rfl, rfl, fun R => ⟨_, _, rfl, by simp, by simp⟩, le_rfl, rfl, .inr ⟨gnRef_reference _ _, ?_⟩⟩,
        ⟨"B", 2, gnCal, adjSq, rfl, rfl, rfl, rfl, fun R => ⟨_, _, rfl, by simp, by simp⟩, (by omega), rfl, .inl ⟨gnCal_calibrated _, rfl, (by simp)⟩⟩⟩
      intro b c u hb hu
      rcases b with _ | _ | _ | b
      · cases hu; exact .inl rfl
      · cases hb
      · cases hb
      · simp [pcReal, realCase, realIdx, Idx.blocks] at hb
    · simp [pcReal, realCase, realIdx] at hp

end Fixture

open Fixture in
/-- The hypotheses of `C59_derivative` are met, at every choice of the parameters. -/
theorem C59_derivative_case (a : List ℝ) (ha : a.length = 2) : ∃ p : PC ℝ Int, pcReal.normalise = .ok p.hd ∧ p = PC.init p.hd ∧
    p.xyza.length = p.hd.mu.values.length + p.hd.a.length ∧ pcReal.SolverReady ["B", "B"] [] 2 ∧ (p.at a).asGN.Smooth pcReal ["B", "B"] [] ∧
    (∀ u ∈ pcReal.mu.unc, u.unc.typeID = 1 ∨ u.unc.typeID = 2) ∧ p.hd.mu.values.length = 7 ∧ p.hd.mu.ks.length = 2 ∧ p.hd.a.length = 2 := by
  obtain ⟨nm, hn⟩ : ∃ nm, pcReal.normalise = .ok nm := ⟨_, rfl⟩
  have hl : nm.mu.values.length = 7 ∧ nm.mu.ks.length = 2 ∧ nm.a.length = 2 := by
    have : pcReal.normalise.map (fun m => (m.mu.values.length, m.mu.ks.length, m.a.length)) = .ok (7, 2, 2) := by kernel_rfl
    rw [hn] at this
    simpa [Except.map] using this
  obtain ⟨l1, l2, l3⟩ := hl
  have hx : (PC.init nm).xyza.length = nm.mu.values.length + nm.a.length := by simp [PC.init]
  refine ⟨PC.init nm, hn, rfl, hx, pcReal_ready, ?_, ?_, l1, l2, l3⟩
  · have hsol : ((PC.init nm).at a).asGN.Solves pcReal := ⟨hn, by
      show (List.take _ _ ++ a).length = nm.mu.values.length + nm.a.length
      rw [List.length_append, List.length_take, ha, hx, l3, l1]
      show min nm.mu.values.length _ + _ = _
      rw [l1]
      rfl, (identS_shape (α := ℝ) nm.a.length).1, (identS_shape (α := ℝ) nm.a.length).2⟩
    obtain ⟨N, n, hs⟩ := hsol.setup pcReal_ready
    intro i k pair hp hk
    rcases i with _ | i
    · cases hp; cases hk
      have hv := hs.facts.vlen
      refine ⟨⟨"A", 1, gnRef, adjSq, _, fun x => x * x, fun x => 2 * x, rfl, rfl, rfl, rfl,
          ready_unconvert pcReal_ready hs.facts rfl rfl rfl (by rw [hs.xlen]; omega), fun R => rfl, .inr ⟨gnRef_reference _ _, ?_, ?_⟩⟩,
        ⟨"B", 2, gnCal, adjSq, _, fun x => x * x, fun x => 2 * x, rfl, rfl, rfl, rfl,
          ready_unconvert pcReal_ready hs.facts rfl rfl rfl (by rw [hs.xlen]; omega), fun R => rfl, .inl ⟨calPhi, calGrad, gnCal_pointwise _, ?_⟩⟩⟩
      · intro b c u hb hu
        rcases b with _ | _ | _ | b
        · cases hu; rfl
        · cases hb
        · cases hb
        · simp [pcReal, realCase, realIdx, Idx.blocks] at hb
      · intro r _
        refine ((hasDerivAt_id _).fun_mul (hasDerivAt_id _)).congr_deriv ?_
        simp only [id]; ring
      · intro r _
        refine ⟨calPhi_gradient _ _ (by simp [rowOf]) ?_, ?_⟩
        · have : ((PC.init nm).at a).asGN.xyza.drop nm.mu.values.length = a := by simp [PC.at, PC.asGN, PC.init]
          obtain ⟨a0, a1, rfl⟩ := List.length_eq_two.1 ha
          show (labelled _ (((PC.init nm).at [a0, a1]).asGN.xyza.drop nm.mu.values.length) _).length = 2
          rw [this]
          rfl
        · refine ((hasDerivAt_id _).fun_mul (hasDerivAt_id _)).congr_deriv ?_
          simp only [id]; ring
    · simp [pcReal, realCase, realIdx] at hp
  · intro u hu
    simp only [pcReal, List.mem_cons, List.not_mem_nil, or_false] at hu
    rcases hu with rfl | rfl | rfl
    · exact .inl rfl
    · exact .inr rfl
    · exact .inl rfl

end Verif
