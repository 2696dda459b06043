import Verif.Props.Staged
import Verif.Props.HarmoniseCase
/-
C83: concrete stages.
-/
set_option autoImplicit false
namespace Verif
namespace Fixture

/-- The routines of the runs below: as a stand-in for MINRES, one product with the operator. -/
def stageO : HarmRoutines ℚ Int := { harmO with minres := fun g b => g.calcHx b }

theorem stageO_operatorOnly : OperatorOnly stageO.minres := fun _ _ _ _ _ h => h _

/-- The calibrated sensor `B` with a drift in time, which is left out where no times are given. -/
def timedModels : SensorData ℚ (SensorModel ℚ Int) (AdjModel ℚ) :=
  [("A", { parameter := [], constant := [], model := gnRef }),
   ("B", { parameter := [2, 3], constant := [], model := fun X a c xt al t => do
      let r ← gnCal X a c xt al t
      match t with
      | none => pure r
      | some _ => pure (r.1, r.2.map fun J => J.map fun col => col.map (· * 2)) })]

def stageRun (sd : SensorData ℚ (SensorModel ℚ Int) (AdjModel ℚ)) : Py (Evaluable ℚ Int × Dir ℚ × (HarmResult ℚ × Option (GNSaved ℚ)) × (HarmResult ℚ × Option (GNSaved ℚ)) × List ℚ) := do
  let ms : Evaluable ℚ Int ← openMatchUpWith qenv defaultAdjustment [refFile] sd
  let pcd ← earlier.save (-1) [] "harm_pc.nc".toList true
  let r ← harmoniseEIV stageO ms (some (pcd, pcd.names)) none none true
  let q ← harmoniseEIV stageO ms (some (pcd, pcd.names)) none none false
  let op := StagedOp.on qenv defaultAdjustment [refFile] sd r.2
  let v0 ← op.covarianceIJ stageO 0 0
  let v1 ← op.covarianceIJ stageO 0 1
  let v2 ← op.covarianceIJ stageO 1 0
  let v3 ← op.covarianceIJ stageO 1 1
  pure (ms, pcd, r, q, [v0, v1, v2, v3])

theorem stageRun_inv {sd : SensorData ℚ (SensorModel ℚ Int) (AdjModel ℚ)} {ms : Evaluable ℚ Int} {pcd : Dir ℚ} {r q : HarmResult ℚ × Option (GNSaved ℚ)} {l : List ℚ}
    (h : stageRun sd = .ok (ms, pcd, r, q, l)) :
    openMatchUpWith qenv defaultAdjustment [refFile] sd = .ok ms ∧ harmoniseEIV stageO ms (some (pcd, pcd.names)) none none true = .ok r ∧
    harmoniseEIV stageO ms (some (pcd, pcd.names)) none none false = .ok q ∧
    (StagedOp.on qenv defaultAdjustment [refFile] sd r.2).Elements stageO 2 fun i j => l.getD (2 * i + j) 0 := by
  unfold stageRun at h
  obtain ⟨ms', g1, h⟩ := bind_ok.1 h
  obtain ⟨pcd', _, h⟩ := bind_ok.1 h
  obtain ⟨r', g3, h⟩ := bind_ok.1 h
  obtain ⟨q', g4, h⟩ := bind_ok.1 h
  obtain ⟨v0, k0, h⟩ := bind_ok.1 h
  obtain ⟨v1, k1, h⟩ := bind_ok.1 h
  obtain ⟨v2, k2, h⟩ := bind_ok.1 h
  obtain ⟨v3, k3, h⟩ := bind_ok.1 h
  rw [pure_ok] at h
  simp only [Prod.mk.injEq] at h
  obtain ⟨rfl, rfl, rfl, rfl, rfl⟩ := h
  refine ⟨g1, g3, g4, ?_⟩
  intro i hi j hj
  interval_cases i <;> interval_cases j
  · exact k0
  · exact k1
  · exact k2
  · exact k3

end Fixture

open Fixture in
/-- The hypotheses of `C83_staged_partial` are met, and both ways give this matrix. -/
theorem C83_case : ∃ (ms : Evaluable ℚ Int) (pcd : Dir ℚ) (r q : HarmResult ℚ) (f : GNSaved ℚ) (v : Nat → Nat → ℚ),
    openMatchUpWith qenv defaultAdjustment [refFile] gnModels = .ok ms ∧ OperatorOnly stageO.minres ∧ (∀ f ∈ ms.sensor_model, f.Timeless) ∧ ms.a.length = 2 ∧
    (∀ a V, ms.preconditioner stageO (some (pcd, pcd.names)) none = .ok (a, V) → a.length = ms.a.length) ∧
    harmoniseEIV stageO ms (some (pcd, pcd.names)) none none true = .ok (r, some f) ∧
    harmoniseEIV stageO ms (some (pcd, pcd.names)) none none false = .ok (q, none) ∧
    (StagedOp.on qenv defaultAdjustment [refFile] gnModels (some f)).Elements stageO 2 v ∧
    q.covariance = some [[20394694800, 14982300], [14982300, 11025]] ∧
    combineCovariance (elementFiles "t".toList 2 v) = .ok [[20394694800, 14982300], [14982300, 11025]] := by
  obtain ⟨⟨ms, pcd, ⟨r, sv⟩, ⟨q, sq⟩, l⟩, h1, h2⟩ := check_ok' (x := stageRun gnModels)
    (fun z => decide (z.1.a.length = 2) && decide (z.2.2.2.1.1.covariance = some [[20394694800, 14982300], [14982300, 11025]]) &&
      z.2.2.1.2.isSome && z.2.2.2.1.2.isNone && decide (z.2.2.2.2 = [20394694800, 14982300, 14982300, 11025]) &&
      (match z.1.preconditioner stageO (some (z.2.1, z.2.1.names)) none with
       | .ok (a, _) => decide (a.length = 2)
       | _ => false)) (by decide +kernel)
  simp only [Bool.and_eq_true, decide_eq_true_eq] at h2
  obtain ⟨⟨⟨⟨⟨e1, e2⟩, e3⟩, e4⟩, e5⟩, e6⟩ := h2
  obtain ⟨g1, g2, g3, g4⟩ := stageRun_inv h1
  obtain ⟨f, rfl⟩ := Option.isSome_iff_exists.1 e3
  rw [Option.isNone_iff_eq_none] at e4
  subst e4; subst e5
  refine ⟨ms, pcd, r, q, f, _, g1, stageO_operatorOnly, ?_, e1, ?_, g2, g3, g4, e2, ?_⟩
  · intro f hf
    obtain ⟨e, h3, rfl⟩ := models_of_data (by decide) g1 f hf
    simp only [gnModels, List.mem_cons, List.not_mem_nil, or_false] at h3
    rcases h3 with rfl | rfl
    · intro X a c xt al t t'; rfl
    · intro X a c xt al t t'; rfl
  · intro a V h
    rw [h] at e6
    rw [e1]; simpa using e6
  · decide +kernel

open Fixture in
/-- **C83 fails for sensor models that use times.** The solver works on match-ups without times, the element is computed on match-ups with times. -/
theorem C83_time_fails : ∃ (ms : Evaluable ℚ Int) (pcd : Dir ℚ) (r q : HarmResult ℚ) (f : GNSaved ℚ) (v : Nat → Nat → ℚ) (V : List (List ℚ)),
    openMatchUpWith qenv defaultAdjustment [refFile] timedModels = .ok ms ∧ OperatorOnly stageO.minres ∧ ms.a.length = 2 ∧
    (∀ a V, ms.preconditioner stageO (some (pcd, pcd.names)) none = .ok (a, V) → a.length = ms.a.length) ∧
    harmoniseEIV stageO ms (some (pcd, pcd.names)) none none true = .ok (r, some f) ∧
    harmoniseEIV stageO ms (some (pcd, pcd.names)) none none false = .ok (q, none) ∧
    (StagedOp.on qenv defaultAdjustment [refFile] timedModels (some f)).Elements stageO 2 v ∧
    combineCovariance (elementFiles "t".toList 2 v) = .ok V ∧ q.covariance ≠ some V := by
  obtain ⟨⟨ms, pcd, ⟨r, sv⟩, ⟨q, sq⟩, l⟩, h1, h2⟩ := check_ok' (x := stageRun timedModels)
    (fun z => decide (z.1.a.length = 2) && decide (z.2.2.2.1.1.covariance = some [[203946948, 149823], [149823, 441 / 4]]) &&
      z.2.2.1.2.isSome && z.2.2.2.1.2.isNone && decide (z.2.2.2.2 = [815787792, 599292, 599292, 441]) &&
      (match z.1.preconditioner stageO (some (z.2.1, z.2.1.names)) none with
       | .ok (a, _) => decide (a.length = 2)
       | _ => false)) (by decide +kernel)
  simp only [Bool.and_eq_true, decide_eq_true_eq] at h2
  obtain ⟨⟨⟨⟨⟨e1, e2⟩, e3⟩, e4⟩, e5⟩, e6⟩ := h2
  obtain ⟨g1, g2, g3, g4⟩ := stageRun_inv h1
  obtain ⟨f, rfl⟩ := Option.isSome_iff_exists.1 e3
  rw [Option.isNone_iff_eq_none] at e4
  subst e4; subst e5
  refine ⟨ms, pcd, r, q, f, _, [[815787792, 599292], [599292, 441]], g1, stageO_operatorOnly, e1, ?_, g2, g3, g4, ?_, ?_⟩
  · intro a V h
    rw [h] at e6
    rw [e1]; simpa using e6
  · decide +kernel
  · rw [e2]
    decide +kernel

end Verif
