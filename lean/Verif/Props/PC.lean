import Verif.Lemmas.PCMat
import Verif.Lemmas.Cholesky
import Verif.Props.JacobianCase
/-
C37: the matrix factorised by the preconditioner.
-/
set_option autoImplicit false
namespace Verif
variable {α δ : Type}

/-- **C37.** Whatever the match-up data, models, uncertainties and current estimates: if `calc_LK` gets as far as the factorisation, the matrix it
factorises has one row and column per match-up, is symmetric, and is positive definite: `xᵀ V x ≥ xᵀ x > 0`. -/
theorem C37_positive_definite [Field α] [LinearOrder α] [IsStrictOrderedRing α] {p : PC α δ} {V : List (List α)} (h : p.calcVK = .ok V) :
    ∃ n, p.hd.mu.idx.cNm.getLast? = some n ∧ PosDefinite n V ∧ ∀ x : Nat → α, ∑ i ∈ Finset.range n, x i * x i ≤ quadForm n V x := by
  obtain ⟨n, hn, ha⟩ := PC.calcVK_above h
  refine ⟨n, ?_, ⟨ha.square, ha.symm, fun x ⟨i, hi, hx⟩ => lt_of_lt_of_le ?_ (ha.above x)⟩, ha.above⟩
  · have := pyGet_ok.1 hn
    rw [List.getLast?_eq_getElem?]; exact this
  · refine Finset.sum_pos' (fun j _ => mul_self_nonneg _) ⟨i, Finset.mem_range.2 hi, ?_⟩
    exact lt_of_le_of_ne (mul_self_nonneg _) (Ne.symm (mul_self_ne_zero.2 hx))

/-- **C37**, real numbers: the matrix has a Cholesky factor, so that the factorisation is possible. -/
theorem C37_cholesky {p : PC ℝ δ} {V : List (List ℝ)} (h : p.calcVK = .ok V) : ∃ n L, p.hd.mu.idx.cNm.getLast? = some n ∧ CholeskyFactor n V L := by
  obtain ⟨n, hn, hp, _⟩ := C37_positive_definite h
  obtain ⟨L, hL⟩ := cholesky_exists hp
  exact ⟨n, L, hn, hL⟩

namespace Fixture

/-- Two series of two match-ups with three sensors; B and C are calibrated and have a random-and-systematic covariate. -/
def pcIdx : Idx :=
  { Nm := [2, 2], cNm := [0, 2, 4], Im := [(0, 1), (1, 2)], sensors := ["A", "B", "C"], sensor_ms := [1, 1, 1], n_sensor := [0, 1, 1, 2], n_mu := [1, 1, 2, 2]
    n_cov := [1, 1, 1, 1], N_var := [2, 2, 2, 2], idx := [0, 2, 4, 6, 8], parameter_sensor := some ["B", "C"], constant_sensor := some [] }

/-- Uncertainty numbers are symbolic. -/
def pcCase {α : Type} [Field α] (u1 u2 s1 s2 v k b c : α) : Evaluable α Int :=
  { mu :=
      { idx := pcIdx, original_idx := pcIdx, values := [v, v, v, v, v, v, v, v], ks := [k, k, k, k], unck := [[u1, u2], [u2, u1]]
        unc := [{ unc := .independent [u1, u1], uS_i := none }, { unc := .systematic [u1, u2] [s1, s2], uS_i := some 1 },
                { unc := .systematic [u2, u2] [s2, s1], uS_i := some 1 }, { unc := .systematic [u1, u1] [s2, s2], uS_i := some 2 }]
        w_matrices := [], u_matrices := []
        time1 := none, time2 := none, across_track_index1 := none, across_track_index2 := none, along_track_index1 := none, along_track_index2 := none
        additional_values := none }
    a := [b, c], constant := [], sensor_model := [gnRef, linCal, linCal], adjustment_model := [defaultAdjustment, defaultAdjustment, defaultAdjustment] }

/-- The computation succeeds with rational data: all entries filled, systematic effects of B couple the two series. -/
theorem pc_runs : ∃ (hd : Evaluable ℚ Int) (V : List (List ℚ)), (pcCase 1 2 3 4 5 6 2 3 : Evaluable ℚ Int).normalise = .ok hd ∧
    (PC.init hd).calcVK = .ok V ∧ V.map (fun r => r.map fun v => decide (v = 0)) = List.replicate 4 (List.replicate 4 false) := by
  obtain ⟨⟨hd, V⟩, h1, h2⟩ := check_ok' (x := (do
      let hd ← (pcCase 1 2 3 4 5 6 2 3 : Evaluable ℚ Int).normalise
      let V ← (PC.init hd).calcVK
      pure (hd, V) : Py (Evaluable ℚ Int × List (List ℚ))))
    (fun r => decide (r.2.map (fun r => r.map fun v => decide (v = 0)) = List.replicate 4 (List.replicate 4 false))) (by decide +kernel)
  obtain ⟨hd', g1, h1⟩ := bind_ok.1 h1
  obtain ⟨V', g2, h1⟩ := bind_ok.1 h1
  cases pure_ok.1 h1
  exact ⟨hd, V, g1, g2, of_decide_eq_true h2⟩

end Fixture
end Verif
