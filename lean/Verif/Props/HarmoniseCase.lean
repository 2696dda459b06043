import Verif.Props.HarmoniseSave
import Verif.Props.HarmonisePC
import Verif.Props.PCCase
import Verif.Props.GNRunCase
/-
C82: concrete harmonisations.
-/
set_option autoImplicit false
namespace Verif
namespace Fixture

/-- A reference with one data column, and a calibrated sensor with averaged inputs; both have a systematic effect. -/
def refFile : Dataset ℚ := { rolling with s1 := qside "A" 1 [2] [0] 5 }

/-- A stand-in for the linear solver: lower the first parameter by one while it exceeds 1. -/
def stepDown : GN ℚ Int → List ℚ → Py (List ℚ) := fun g _ =>
  let n := g.xyza.length - 2
  .ok (List.replicate n 0 ++ [if 1 < g.xyza.getD n 0 then -1 else 0, 0])

/-- The routines of the runs below. -/
def harmO : HarmRoutines ℚ Int where
  rnd := fun p k => p.take k
  rms := fun l _ => l.headD 0
  dateZero := 0
  pc := { glsRoutines with chol := fun V => if V = [[4, 0], [0, 9]] then .ok [[2, 0], [0, 3]] else .error .valueError }
  pcTol := 1 / 1000
  lsmr := fun g b _ => do
    let z ← stepDown g b
    pure (some z)
  minres := fun _ b => .ok b
  tol := runTol
  fill := -1
  resave := fun _ => .ok ()

/-- A result saved earlier, with residuals (a directory without residual files cannot be opened). -/
def earlier : HarmResult ℚ :=
  { parameter := [2, 5]
    sensors := ["B", "B"]
    covariance := some [[4, 0], [0, 9]]
    cost := .num 0
    dof := .num 0
    pValue := .num 0
    attrs := []
    vars := []
    idx := { Nm := [3], cNm := [0, 3], Im := [(0, 1)], sensors := ["A", "B"], sensor_ms := [1, 2], n_sensor := [], n_mu := [], n_cov := [], N_var := [], idx := [] }
    values := none
    ks := some [0, 0, 0] }

def harmCfg : SoftwareCfg := { software := "FO", version := "1.0", tag := "abc", job_id := some "01", matchup_dataset := some "test" }

theorem refFile_solvable : SolvableFiles [refFile] (gnModels : SensorData ℚ (SensorModel ℚ Int) (AdjModel ℚ)) 2 := by
  refine ⟨⟨?_, ?_⟩, by decide, ?_, ⟨refFile, by simp, refFile.s2, .inr rfl, rfl⟩, ?_, ?_⟩
  · intro d hd
    simp only [List.mem_cons, List.not_mem_nil, or_false] at hd
    subst hd
    show "A" ≠ "B"; decide
  · intro d hd e he s hs t ht hst
    simp only [List.mem_cons, List.not_mem_nil, or_false] at hd he hs ht
    subst hd; subst he
    rcases hs with rfl | rfl <;> rcases ht with rfl | rfl
    · rfl
    · exact absurd hst (show "A" ≠ "B" by decide)
    · exact absurd hst (show "B" ≠ "A" by decide)
    · rfl
  · intro d hd s hs
    simp only [List.mem_cons, List.not_mem_nil, or_false] at hd
    subst hd
    rcases hs with rfl | rfl
    · exact ⟨show 1 ≤ 1 by omega, show 1 ≤ 2 by omega⟩
    · exact ⟨show 1 ≤ 2 by omega, show 2 ≤ 2 by omega⟩
  · intro d hd s hs c W U hc ht hW hU
    simp only [List.mem_cons, List.not_mem_nil, or_false] at hd
    subst hd
    rcases hs with rfl | rfl
    · have h1 : ∀ c, c < refFile.s1.m → ¬ (refFile.s1.utype c = 3 ∨ refFile.s1.utype c = 4) := by decide
      exact absurd ht (h1 c hc)
    · exact rolling_solvable.matrices rolling (by simp) rolling.s2 (.inr rfl) c W U hc ht hW hU
  · intro d hd s hs e he
    simp only [List.mem_cons, List.not_mem_nil, or_false] at hd
    subst hd
    have hAB : "A" ≠ "B" := by decide
    rcases hs with rfl | rfl
    · have hn : refFile.s1.name = "A" := rfl
      simp only [gnModels, hn, List.mem_cons, Prod.mk.injEq, true_and, hAB, false_and, List.not_mem_nil, or_false] at he
      subst he
      refine ⟨(by intro B hB; cases hB), .inr ⟨gnRef_reference _ _, ?_⟩⟩
      have : ∀ c, c < refFile.s1.m → refFile.s1.utype c = 1 ∨ refFile.s1.utype c = 2 := by decide
      exact this
    · exact rolling_solvable.sensors rolling (by simp) rolling.s2 (.inr rfl) e he

def harmRun : Py (Evaluable ℚ Int × Evaluable ℚ Int × Dir ℚ × (List ℚ × List (List ℚ)) × HarmResult ℚ × Option (GNSaved ℚ)) := do
  let ms : Evaluable ℚ Int ← openMatchUpWith qenv defaultAdjustment [refFile] gnModels
  let nm ← ms.normalise
  let pcd ← earlier.save (-1) [] "harm_pc.nc".toList true
  let pc ← Evaluable.preconditioner harmO ms (some (pcd, pcd.names)) none
  let r ← harmoniseEIV harmO ms (some (pcd, pcd.names)) none none false
  pure (ms, nm, pcd, pc, r)

theorem savable_AB : SavableName "A" ∧ SavableName "B" := by
  refine ⟨⟨by decide, ⟨?_, ?_⟩, by decide, by decide⟩, ⟨by decide, ⟨?_, ?_⟩, by decide, by decide⟩⟩ <;> (intro c hc; cases hc; decide)

theorem harmCfg_name : ∃ name, cfgName harmCfg = .ok name ∧ OutputName name := by
  refine ⟨_, rfl, "_FO_1.0_abc_01_test".toList, ?_, ?_, ?_⟩
  · decide +kernel
  · decide +kernel
  · decide +kernel

end Fixture

open Fixture in
/-- The hypotheses of `C82_result_partial`, `C82_returns_partial` and `C82_saved_partial` are met: this file, opened together with its sensor data, is harmonised with a
preconditioner read from a directory; the first parameter goes from 2 to 0; the result is saved and opened again. Handed to the operator, the same file and sensor data
give a `KeyError`. -/
theorem C82_case : ∃ (ms nm : Evaluable ℚ Int) (pcd : Dir ℚ) (r : HarmResult ℚ) (sv : Option (GNSaved ℚ)) (labels clabels : List String),
    openMatchUpWith qenv defaultAdjustment [refFile] gnModels = .ok ms ∧ ms.SolverReady labels clabels 2 ∧ ms.mu.Normalisable ∧ ms.a = [2, 3] ∧ ms.normalise = .ok nm ∧
    nm.mu.values.length = 13 ∧ (∀ u ∈ ms.mu.unck, ∀ x ∈ u, x ≠ 0) ∧ ms.preconditioner harmO (some (pcd, pcd.names)) none = .ok ([2, 5], [[4, 0], [0, 9]]) ∧
    harmO.pc.chol [[4, 0], [0, 9]] = .ok [[2, 0], [0, 3]] ∧ IsSquare ([[2, 0], [0, 3]] : List (List ℚ)) 2 ∧
    GN.LsmrSized { hd := { nm with a := [2, 5] }, xyza := nm.mu.values ++ [2, 5], S := [[2, 0], [0, 3]] } harmO.lsmr 16 15 ∧
    GN.SolverSized { hd := { nm with a := [2, 5] }, xyza := nm.mu.values ++ [2, 5], S := [[2, 0], [0, 3]] } harmO.minres 15 15 ∧
    harmoniseEIV harmO ms (some (pcd, pcd.names)) none none false = .ok (r, sv) ∧ r.parameter = [0, 5] ∧ r.ks = some [13, 11, 7] ∧ r.covariance = some [[4, 0], [0, 9]] ∧
    harmonisationOp qenv harmO [refFile] gnModels (some (pcd, pcd.names)) none none harmCfg [] = .error .keyError ∧
    ∃ out p q, saveHarmonisation harmO harmCfg [] r = .ok out ∧ openResult out out.names true = .ok (p, some q) ∧ p.parameter = [0, 5] ∧ q.idx.Im.length = 1 := by
  obtain ⟨⟨ms, nm, pcd, pc, r, sv⟩, h1, h2⟩ := check_ok' (x := harmRun)
    (fun z => normOk z.1.mu && decide (z.1.a = [2, 3]) && decide (z.2.1.mu.values.length = 13) && decide (∀ u ∈ z.1.mu.unck, ∀ x ∈ u, x ≠ 0) &&
      decide (z.2.2.2.1 = ([2, 5], [[4, 0], [0, 9]])) && decide (z.2.2.2.2.1.parameter = [0, 5]) && decide (z.2.2.2.2.1.ks = some [13, 11, 7]) &&
      decide (z.2.2.2.2.1.covariance = some [[4, 0], [0, 9]]) &&
      (match harmonisationOp qenv harmO [refFile] gnModels (some (z.2.2.1, z.2.2.1.names)) none none harmCfg [] with
       | .error .keyError => true
       | _ => false)) (by decide +kernel)
  unfold harmRun at h1
  obtain ⟨ms', g1, h1⟩ := bind_ok.1 h1
  obtain ⟨nm', g2, h1⟩ := bind_ok.1 h1
  obtain ⟨pcd', g3, h1⟩ := bind_ok.1 h1
  obtain ⟨pc', g4, h1⟩ := bind_ok.1 h1
  obtain ⟨r', g5, h1⟩ := bind_ok.1 h1
  cases pure_ok.1 h1
  simp only [Bool.and_eq_true, decide_eq_true_eq] at h2
  obtain ⟨⟨⟨⟨⟨⟨⟨⟨e0, e1⟩, e2⟩, e3⟩, e4⟩, e5⟩, e6⟩, e7⟩, e8⟩ := h2
  subst e4
  have hop : harmonisationOp qenv harmO [refFile] gnModels (some (pcd, pcd.names)) none none harmCfg [] = .error .keyError := by
    split at e8
    · assumption
    · cases e8
  obtain ⟨labels, clabels, hr⟩ := opened_solverReady qenv_enum refFile_solvable g1
  have hsq : IsSquare ([[2, 0], [0, 3]] : List (List ℚ)) 2 := by
    refine ⟨rfl, ?_⟩
    intro r hr
    simp only [List.mem_cons, List.not_mem_nil, or_false] at hr
    rcases hr with rfl | rfl <;> rfl
  have hl2 : ms.a.length = 2 := by rw [e1]; rfl
  obtain ⟨name, n1, n2⟩ := harmCfg_name
  obtain ⟨out, ks, s1, s2, s3, s4⟩ := C82_saved_partial qenv_enum refFile_solvable g1 (by rw [e1]; simp) e3
    (by intro nm' h'; rw [g2] at h'; cases h'; omega) g5
    (by
      intro a V h'
      rw [g4] at h'
      cases h'
      refine ⟨by rw [hl2]; rfl, ?_⟩
      intro S hS
      cases (show Except.ok [[2, 0], [0, 3]] = Except.ok S from hS)
      rw [hl2]; exact hsq)
    (cfg := harmCfg) (j := "01") (dset := "test") rfl rfl n1 n2
    (by intro d hd; simp only [List.mem_cons, List.not_mem_nil, or_false] at hd; subst hd; exact savable_AB)
    (by simp) (by intro d hd; simp only [List.mem_cons, List.not_mem_nil, or_false] at hd; subst hd; rfl)
  obtain ⟨p, q, o1, o2, _, _, _, _, _, o3, _⟩ := s4 out.names (List.Perm.refl _)
  refine ⟨ms, nm, pcd, r, sv, labels, clabels, g1, hr, normOk_spec hr.wf e0, e1, g2, e2, e3, g4, rfl, hsq, ?_, ?_, g5, e5, e6, e7, hop, out, p, q, s1, o1,
    o2.trans e5, o3⟩
  · intro x b s hx hb
    refine ⟨_, rfl, ?_⟩
    simp only [List.length_append, List.length_replicate, List.length_cons, List.length_nil]
    have hx : x.length = nm.mu.values.length + 2 := by rw [hx]; simp
    show x.length - 2 + 2 = 15
    omega
  · intro x b hx hb
    exact ⟨b, rfl, hb⟩

namespace Fixture

/-- Ten match-ups of a reference with a calibrated sensor whose measurand is its parameter. -/
def tenFile : Dataset ℚ :=
  { rolling with
    M := 10
    s1 := { qside "A" 1 [1] [0] 0 with X := fun _ _ => 0, Ur := fun _ _ => 12 }
    s2 := { qside "B" 1 [1] [0] 0 with X := fun _ _ => 0, Ur := fun _ _ => 1 }
    K := fun _ => 9
    Kr := fun _ => 9 }

def tenModels : SensorData ℚ (SensorModel ℚ Int) (AdjModel ℚ) :=
  [("A", { parameter := [], constant := [], model := gnRef }), ("B", { parameter := [0], constant := [], model := offsetCal })]

/-- Routines that answer the questions they are asked in the run below, and fail otherwise. -/
def tenRoutines : PCRoutines ℚ where
  chol M := if M = [[25/9]] then .ok [[5/3]] else if M = [[225]] then .ok [[15]] else .error .valueError
  solve L d := if L = [[5/3]] ∧ d.length = 1 then .ok (d.map (· * (3/5))) else .error .valueError
  lsq f a J _ := do
    let y ← f [9]
    let C ← J [9]
    if a.length = 1 ∧ ∀ c ∈ C, dotp c y = 0 then .ok ([9], [9]) else .error .valueError
  sqrt := ratSqrt
  qrR J := if J = [[1/15]] then .ok [[1/15]] else .error .valueError
  lstsq R B := if R = [[1/15]] ∧ B = [[1]] then .ok [[15]] else .error .valueError

def tenO : HarmRoutines ℚ Int :=
  { harmO with
    pc := tenRoutines
    lsmr := fun g _ _ => .ok (some (List.replicate g.xyza.length 0)) }

def tenRun : Py (Evaluable ℚ Int × HarmResult ℚ × HarmResult ℚ × Option (GNSaved ℚ)) := do
  let ms : Evaluable ℚ Int ← openMatchUpWith qenv defaultAdjustment [tenFile] tenModels
  let p ← Evaluable.precondition tenO ms
  let r ← harmoniseEIV tenO ms none none none true
  pure (ms, p, r)

theorem tenRoutines_sound : tenRoutines.Sound := by
  refine ⟨?_, ?_, ?_, ratSqrt_spec, ?_, ?_⟩
  · intro M L n hM h
    simp only [tenRoutines] at h
    split_ifs at h with hc hc2
    · cases h; subst hc
      obtain rfl : n = 1 := by have := hM.1; simp at this; omega
      refine ⟨⟨rfl, by simp⟩, ?_⟩
      ext i j
      fin_cases i; fin_cases j; simp [rowsMat, Matrix.mul_apply, entry]; norm_num
    · cases h; subst hc2
      obtain rfl : n = 1 := by have := hM.1; simp at this; omega
      refine ⟨⟨rfl, by simp⟩, ?_⟩
      ext i j
      fin_cases i; fin_cases j; simp [rowsMat, Matrix.mul_apply, entry]; norm_num
  · intro L d y n hL hd h
    simp only [tenRoutines] at h
    split_ifs at h with hc
    cases h
    obtain ⟨rfl, hd2⟩ := hc
    obtain rfl : n = 1 := by omega
    obtain ⟨d0, rfl⟩ := List.length_eq_one_iff.1 hd2
    refine ⟨rfl, ?_⟩
    funext i
    fin_cases i; simp [rowsMat, listVec, Matrix.mulVec, dotProduct, entry]; ring
  · intro f a J tol r h
    simp only [tenRoutines] at h
    obtain ⟨y, -, h⟩ := bind_ok.1 h
    obtain ⟨C, -, h⟩ := bind_ok.1 h
    split_ifs at h with hc
    cases h
    exact ⟨hc.1.symm, hc.1.symm⟩
  · intro J R m n hn hm h
    simp only [tenRoutines] at h
    split_ifs at h with hc
    cases h; subst hc
    obtain rfl : n = 1 := by simpa using hn.symm
    obtain rfl : m = 1 := by simpa using (hm _ (List.mem_singleton_self _)).symm
    refine ⟨rfl, by simp, ?_, ?_⟩
    · intro i j hij
      rcases i with _ | i
      · omega
      · simp [entry]
    · ext i j
      fin_cases i; fin_cases j
      simp [rowsMat, colsMat, Matrix.mul_apply, entry]
  · intro R B U n hR hB h
    simp only [tenRoutines] at h
    split_ifs at h with hc
    cases h
    obtain ⟨rfl, rfl⟩ := hc
    obtain rfl : n = 1 := by simpa using hB.1.symm
    refine ⟨rfl, ⟨rfl, by simp⟩, ?_⟩
    ext i j
    fin_cases i; fin_cases j
    simp [rowsMat, Matrix.mul_apply, entry]

theorem tenRoutines_stationary : tenRoutines.Stationary := by
  intro f a J tol r h
  simp only [tenRoutines] at h
  obtain ⟨y, hy, h⟩ := bind_ok.1 h
  obtain ⟨C, hC, h⟩ := bind_ok.1 h
  split_ifs at h with hc
  cases h
  exact ⟨y, C, hy, hC, hc.2⟩

theorem take_sampleOk : SampleOk fun p k => p.take k := by
  intro p k hk
  exact ⟨by rw [List.length_take]; omega, (List.take_sublist k p).subperm⟩

theorem tenFile_solvable : SolvableFiles [tenFile] tenModels 1 := by
  refine ⟨⟨?_, ?_⟩, by decide, ?_, ⟨tenFile, by simp, tenFile.s1, .inl rfl, rfl⟩, ?_, ?_⟩
  · intro d hd
    simp only [List.mem_cons, List.not_mem_nil, or_false] at hd
    subst hd
    show "A" ≠ "B"; decide
  · intro d hd e he s hs t ht _
    simp only [List.mem_cons, List.not_mem_nil, or_false] at hd he hs ht
    subst hd; subst he
    rcases hs with rfl | rfl <;> rcases ht with rfl | rfl <;> rfl
  · intro d hd s hs
    simp only [List.mem_cons, List.not_mem_nil, or_false] at hd
    subst hd
    rcases hs with rfl | rfl <;> exact ⟨show 1 ≤ 1 by omega, show 1 ≤ 1 by omega⟩
  · intro d hd s hs c W U hc ht hW hU
    simp only [List.mem_cons, List.not_mem_nil, or_false] at hd
    subst hd
    have h1 : ∀ c, c < tenFile.s1.m → ¬ (tenFile.s1.utype c = 3 ∨ tenFile.s1.utype c = 4) := by decide
    have h2 : ∀ c, c < tenFile.s2.m → ¬ (tenFile.s2.utype c = 3 ∨ tenFile.s2.utype c = 4) := by decide
    rcases hs with rfl | rfl
    · exact absurd ht (h1 c hc)
    · exact absurd ht (h2 c hc)
  · intro d hd s hs e he
    simp only [List.mem_cons, List.not_mem_nil, or_false] at hd
    subst hd
    have hAB : "A" ≠ "B" := by decide
    rcases hs with rfl | rfl
    · have hn : tenFile.s1.name = "A" := rfl
      simp only [tenModels, hn, List.mem_cons, Prod.mk.injEq, true_and, hAB, false_and, List.not_mem_nil, or_false] at he
      subst he
      refine ⟨(by intro B hB; cases hB), .inr ⟨gnRef_reference _ _, ?_⟩⟩
      have : ∀ c, c < tenFile.s1.m → tenFile.s1.utype c = 1 ∨ tenFile.s1.utype c = 2 := by decide
      exact this
    · have hn : tenFile.s2.name = "B" := rfl
      simp only [tenModels, hn, List.mem_cons, Prod.mk.injEq, true_and, hAB.symm, false_and, List.not_mem_nil, or_false, false_or] at he
      subst he
      refine ⟨(by intro B hB; cases hB), .inl ⟨?_, rfl, by simp⟩⟩
      intro X a xt al t k hX hk _
      obtain ⟨x0, rfl⟩ := List.length_eq_one_iff.1 hX
      have h0 := hk x0 (by simp)
      refine ⟨_, _, rfl, by simp [h0], rfl, ?_⟩
      intro col hcol
      simp only [List.headD_cons, List.mem_cons, List.not_mem_nil, or_false] at hcol
      rcases hcol with rfl | rfl <;> simp [h0]

end Fixture

open Fixture in
/-- The hypotheses of `C82_preconditioner_partial` are met: of ten match-ups one is sampled, the preconditioner is computed with routines that keep their contracts, and the
harmonisation started from it returns; it is to be saved, so the covariance is zero. -/
theorem C82_computed_case : ∃ (ms : Evaluable ℚ Int) (p r : HarmResult ℚ) (sv : GNSaved ℚ) (labels clabels : List String),
    openMatchUpWith qenv defaultAdjustment [tenFile] tenModels = .ok ms ∧ ms.SolverReady labels clabels 1 ∧ ms.IgnoresTimes labels clabels ∧ SampleOk tenO.rnd ∧
    tenO.pc.Sound ∧ tenO.pc.Stationary ∧ ms.precondition tenO = .ok p ∧ p.parameter = [9] ∧ p.covariance = some [[225]] ∧
    harmoniseEIV tenO ms none none none true = .ok (r, some sv) ∧ r.parameter = [9] ∧ r.covariance = some [[0]] := by
  obtain ⟨⟨ms, p, r, sv⟩, h1, h2⟩ := check_ok' (x := tenRun)
    (fun z => decide (z.2.1.parameter = [9]) && decide (z.2.1.covariance = some [[225]]) && decide (z.2.2.1.parameter = [9]) &&
      decide (z.2.2.1.covariance = some [[0]]) && z.2.2.2.isSome) (by decide +kernel)
  unfold tenRun at h1
  obtain ⟨ms', g1, h1⟩ := bind_ok.1 h1
  obtain ⟨p', g2, h1⟩ := bind_ok.1 h1
  obtain ⟨r', g3, h1⟩ := bind_ok.1 h1
  cases pure_ok.1 h1
  simp only [Bool.and_eq_true, decide_eq_true_eq] at h2
  obtain ⟨⟨⟨⟨e1, e2⟩, e3⟩, e4⟩, e5⟩ := h2
  obtain ⟨sv, rfl⟩ := Option.isSome_iff_exists.1 e5
  obtain ⟨labels, clabels, hr⟩ := opened_solverReady qenv_enum tenFile_solvable g1
  refine ⟨ms, p, r, sv, labels, clabels, g1, hr, ?_, take_sampleOk, tenRoutines_sound, tenRoutines_stationary, g2, e1, e2, g3, e3, e4⟩
  obtain ⟨mu, ex, hmu, hex, rfl⟩ := openMatchUpWith_inv g1
  obtain ⟨-, -, -, -, -, c6, c7⟩ := C12_extraction defaultAdjustment tenModels tenFile_solvable.keys mu.idx.sensors ex hex
  intro i s q pair name f hp hs hn hq hf X a' xt al t k _ _ _
  obtain ⟨x, hx, hx2⟩ := c7 s name hn
  have hf : ex.sensor_model[s]? = some f := hf
  rw [hx2] at hf
  cases hf
  simp only [tenModels, List.mem_cons, Prod.mk.injEq, List.not_mem_nil, or_false] at hx
  rcases hx with ⟨-, rfl⟩ | ⟨-, rfl⟩ <;> rfl

open Fixture in
/-- The hypotheses of `C82_needs_ten_match_ups_per_parameter` are met: with the three match-ups of `refFile` and two parameters no preconditioner can be computed. -/
theorem C82_few_case : ∃ (ms : Evaluable ℚ Int), openMatchUpWith qenv defaultAdjustment [refFile] gnModels = .ok ms ∧ ms.mu.ks.length = 3 ∧ ms.a.length = 2 ∧
    ∀ sp gn sg r, harmoniseEIV tenO ms none sp gn sg ≠ .ok r := by
  obtain ⟨ms, h1, h2⟩ := check_ok' (x := (openMatchUpWith qenv defaultAdjustment [refFile] gnModels : Py (Evaluable ℚ Int)))
    (fun z => decide (z.mu.ks.length = 3) && decide (z.a.length = 2)) (by decide +kernel)
  simp only [Bool.and_eq_true, decide_eq_true_eq] at h2
  obtain ⟨labels, clabels, hr⟩ := opened_solverReady qenv_enum refFile_solvable h1
  refine ⟨ms, h1, h2.1, h2.2, C82_needs_ten_match_ups_per_parameter take_sampleOk tenRoutines_sound hr ?_ (by omega)⟩
  obtain ⟨mu, ex, hmu, hex, rfl⟩ := openMatchUpWith_inv h1
  obtain ⟨-, -, -, -, -, c6, c7⟩ := C12_extraction defaultAdjustment gnModels refFile_solvable.keys mu.idx.sensors ex hex
  intro i s q pair name f hp hs hn hq hf X a' xt al t k _ _ _
  obtain ⟨x, hx, hx2⟩ := c7 s name hn
  have hf : ex.sensor_model[s]? = some f := hf
  rw [hx2] at hf
  cases hf
  simp only [gnModels, List.mem_cons, Prod.mk.injEq, List.not_mem_nil, or_false] at hx
  rcases hx with ⟨-, rfl⟩ | ⟨-, rfl⟩ <;> rfl

end Verif
