import Verif.Props.GNRun
import Verif.Props.JacobianCase
/-
Concrete runs for properties C32 - C36, and the cases where C34, C35 and C36 fail.
-/
set_option autoImplicit false
namespace Verif
namespace Fixture

/-- A stand-in for the linear solver: lower the first parameter by one while it exceeds 1. -/
def descent : GN ℚ Int → List ℚ → Py (List ℚ) := fun g _ =>
  .ok (List.replicate 16 0 ++ [if 1 < g.xyza.getD 16 0 then -1 else 0, 0])

/-- The same as an object keeping its solution. -/
def descentO : LsmrObject ℚ Int := fun g b _ => do
  let z ← descent g b
  pure (some z)

def runTol : GNTol ℚ := ⟨1/1000000, 1/1000, 100000000⟩

end Fixture

open Fixture in
/-- The hypotheses of C32 - C34 are met by a run of two iterations on match-ups with two systematic effects, the last converged. The reported number of degrees of
freedom is 11, although there are 19 residuals and 18 unknowns. -/
theorem C34_reported_dof_fails : ∃ (ms : Evaluable ℚ Int) (g : GN ℚ Int) (labels clabels : List String) (res : GNResult ℚ) (f : List ℚ),
    openMatchUpWith qenv defaultAdjustment [rolling] gnModels = .ok ms ∧ ConsistentFiles [rolling] ∧
    ms.SolverReady labels clabels 2 ∧ g.Solves ms ∧ g.run descentO descent runTol false = .ok res ∧ g.calcF res.state.xyza = .ok f ∧
    res.state.niter = 2 ∧ res.state.conv = true ∧ res.a = [1, 3] ∧ res.systematic_error_sensors = some ["A", "B"] ∧
    res.systematic_errors = some [0, 0] ∧ res.dof = 11 ∧ f.length = 19 ∧ res.state.xyza.length = 18 := by
  obtain ⟨ms, g, labels, clabels, h0, hr, hs, l1, l2, l3, _⟩ := C28_case
  obtain ⟨⟨p, res⟩, h1, h2⟩ := check_ok' (x := (do
      let p ← gnStart
      let r ← p.2.run descentO descent runTol false
      pure (p, r) : Py ((Evaluable ℚ Int × GN ℚ Int) × GNResult ℚ)))
    (fun p => decide (p.2.state.niter = 2) && p.2.state.conv && decide (p.2.a = [1, 3]) && decide (p.2.systematic_error_sensors = some ["A", "B"]) &&
      decide (p.2.systematic_errors = some [0, 0]) && decide (p.2.dof = 11))
    (by decide +kernel)
  obtain ⟨p', g1, h1⟩ := bind_ok.1 h1
  obtain ⟨r', g2, h1⟩ := bind_ok.1 h1
  rw [pure_ok] at h1
  cases h1
  rw [h0] at g1
  cases g1
  simp only [Bool.and_eq_true, decide_eq_true_eq] at h2
  obtain ⟨⟨⟨⟨⟨e1, e2⟩, e3⟩, e4⟩, e5⟩, e6⟩ := h2
  obtain ⟨f, hf, _, hl, hl2, _⟩ := C34_reported_dof_partial hr hs (by rw [hs.xyza]; omega) g2
  exact ⟨ms, g, labels, clabels, res, f, (gnStart_inv h0).1, qfile_consistent _ _ _ _, hr, hs, g2, hf, e1, e2, e3, e4, e5, e6, by omega, by omega⟩

open Fixture in
/-- **C35, where it fails.** A saved solver and its restart have different residuals at the same estimate: the restart compares the estimate of K divided by its
uncertainty with the K of the files, not divided. -/
theorem C35_restart_fails : ∃ (ms : Evaluable ℚ Int) (g : GN ℚ Int) (labels clabels : List String) (m : Nat) (f f' : List ℚ), ms.SolverReady labels clabels m ∧
    g.Solves ms ∧ g.calcF g.xyza = .ok f ∧ (GN.restart ms ms.a g.save [] []).calcF g.xyza = .ok f' ∧ f ≠ f' := by
  have hs : (tinyG (2 : ℚ) 1 1 1 1 1 [1/2, 1/2, 0, 1]).Solves (tinyCase 2 1 1 1 1 1) := ⟨tinyG_norm _ _ _ _ _ _ _, rfl, rfl, by simp [tinyG, tinyCase]⟩
  have hf := tinyG_calcF (2 : ℚ) 1 1 1 1 1 (1/2) (1/2) 0 1 [1/2, 1/2, 0, 1]
  obtain ⟨f', h1, _, _, h4⟩ := C35_restart_residuals (tinyCase_ready (2 : ℚ) 1 1 1 1 1) hs (tinyCase (2 : ℚ) 1 1 1 1 1).a [] [] rfl hf
  refine ⟨_, _, _, _, _, _, f', tinyCase_ready (2 : ℚ) 1 1 1 1 1, hs, hf, h1, ?_⟩
  intro e
  have h5 := h4 0 (by simp [tinyG])
  rw [← e, sub_self] at h5
  have h6 : ent (tinyG (2 : ℚ) 1 1 1 1 1 [1/2, 1/2, 0, 1]).hd.mu.ks 0 - ent (tinyCase (2 : ℚ) 1 1 1 1 1).mu.ks 0 = 1 / 2 - 1 := rfl
  rw [h6] at h5
  norm_num at h5

namespace Fixture

/-- Two calibrated sensors, A with one column and B with two. -/
def unequal : Dataset ℚ := { rolling with s1 := qside "A" 1 [1] [0] 5 }

def unequalModels : SensorData ℚ (SensorModel ℚ Int) (AdjModel ℚ) :=
  [("A", { parameter := [1], constant := [], model := linCal }), ("B", { parameter := [2, 3], constant := [], model := gnCal })]

end Fixture

open Fixture in
/-- The hypotheses of `C36_fewer_covariates_fail` are met: these files open and are normalised, and no run returns. -/
theorem C36_case : ∃ (ms : Evaluable ℚ Int) (g : GN ℚ Int), openMatchUpWith qenv defaultAdjustment [unequal] unequalModels = .ok ms ∧
    ms.normalise = .ok g.hd ∧ (∃ f, g.calcF g.xyza = .ok f) ∧
    ∀ (lsmr : LsmrObject ℚ Int) (minres : GN ℚ Int → List ℚ → Py (List ℚ)) (tol : GNTol ℚ) (rc : Bool) (res : GNResult ℚ), g.run lsmr minres tol rc ≠ .ok res := by
  obtain ⟨⟨ms, g, f⟩, h1, h2⟩ := check_ok' (x := (do
      let ms ← openMatchUpWith qenv defaultAdjustment [unequal] unequalModels
      let nm ← ms.normalise
      let g : GN ℚ Int := { hd := nm, xyza := nm.mu.values ++ nm.a, S := [] }
      let f ← g.calcF g.xyza
      pure (ms, g, f) : Py (Evaluable ℚ Int × GN ℚ Int × List ℚ)))
    (fun _ => true) (by decide +kernel)
  obtain ⟨ms', g1, h1⟩ := bind_ok.1 h1
  obtain ⟨nm, g2, h1⟩ := bind_ok.1 h1
  obtain ⟨f', g3, h1⟩ := bind_ok.1 h1
  rw [pure_ok] at h1
  cases h1
  refine ⟨ms, _, g1, g2, ⟨f, g3⟩, ?_⟩
  have hc : ConsistentFiles [unequal] := by
    constructor
    · intro d hd
      simp only [List.mem_cons, List.not_mem_nil, or_false] at hd
      subst hd
      show "A" ≠ "B"; decide
    · intro d hd e he s hs t ht hst
      simp only [List.mem_cons, List.not_mem_nil, or_false] at hd he hs ht
      subst hd; subst he
      rcases hs with rfl | rfl <;> rcases ht with rfl | rfl
      · rfl
      · exact absurd hst (show "A" ≠ "B" by decide)
      · exact absurd hst (show "B" ≠ "A" by decide)
      · rfl
  refine (C36_fewer_covariates_fail hc (by decide) g1 g2 (d := unequal) (d' := unequal) (s := unequal.s1) (s' := unequal.s2) (by simp) (.inl rfl) (by simp) (.inr rfl)
    (show 1 < 2 by omega) ?_).2.2
  intro e he X a k xt al t R J hm
  have hn : unequal.s1.name = "A" := rfl
  have hAB : "A" ≠ "B" := by decide
  simp only [unequalModels, hn, List.mem_cons, Prod.mk.injEq, true_and, hAB, false_and, List.not_mem_nil, or_false] at he
  subst he
  cases hm
  simp

end Verif
