import Verif.Model.Measurand
import Mathlib.Analysis.SpecialFunctions.Exp
import Mathlib.Analysis.SpecialFunctions.Trigonometric.Basic
import Mathlib.Algebra.Order.Floor.Semiring
/-
Model of the sensor models shipped with the package: sensor_data/AVHRR/AVHRR_sensor_models.py, sensor_data/HIRS/HIRS_sensor_models.py and
sensor_data/MW/MW_sensor_models.py (the Cython copy AVHRR_sensor_models_cython.pyx is imported nowhere).

A model is called with six arguments (matchup_maths.py L117, GN_algo.py): covariates, parameters, constants, across-track index, along-track index, time.
Arrays are lists of columns.  Numbers are reals: no rounding (the MW derivatives are stored as float32), and a division by zero gives zero where numpy
gives inf or nan.
-/
set_option autoImplicit false
namespace Verif
variable {δ : Type}

/-- numpy evaluates arithmetic on columns element by element: the value of `f` on each row of an array given by its columns. -/
def eachRow {β : Type} (X : List (List ℝ)) (f : (Nat → ℝ) → β) : List β :=
  (List.range (X.headD []).length).map fun i => f fun j => (X.getD j []).getD i 0

/-- A Python sensor function that works row by row. `value x a` is the measurand of the row `x` for parameters `a`; `derivs x a` the row of the array of
derivatives. -/
structure RowFun where
  /-- number of positional arguments of the function -/
  nargs : Nat
  /-- number of columns it reads -/
  ncov : Nat
  /-- number of parameters it reads -/
  npar : Nat
  value : (Nat → ℝ) → (Nat → ℝ) → ℝ
  derivs : (Nat → ℝ) → (Nat → ℝ) → List ℝ

/-- Calling it with the six arguments: `TypeError` if it takes another number of arguments, `IndexError` if columns or parameters are missing. -/
def RowFun.call (F : RowFun) : SensorModel ℝ δ := fun X a _ _ _ _ =>
  if F.nargs ≠ 6 then .error .typeError
  else if X.length < F.ncov ∨ a.length < F.npar then .error .indexError
  else .ok (eachRow X fun x => F.value x fun j => a.getD j 0,
    some ((List.range (F.ncov + F.npar)).map fun j => eachRow X fun x => (F.derivs x fun j => a.getD j 0).getD j 0))

/-- `numpy.dot` of a row with the coefficients. -/
def dotRow (u v : List ℝ) : ℝ := (List.zipWith (· * ·) u v).sum

/-! ### AVHRR -/

/-- The three factors common to the AVHRR models. Columns: space count, ICT count, Earth count, ICT radiance (and orbit temperature). -/
noncomputable def avLin (x : Nat → ℝ) : ℝ := x 3 * (x 0 - x 2) / (x 0 - x 1)
def avQuad (x : Nat → ℝ) : ℝ := (x 1 - x 2) * (x 0 - x 2)

/-- Derivatives with respect to the first four covariates, with the quadratic term (AVHRR_sensor_models.py L99-102, 157-160, 308-311, 371-374). -/
noncomputable def avCov (x : Nat → ℝ) (a1 a2 : ℝ) : List ℝ :=
  [a1 * x 3 * (x 2 - x 1) / (x 0 - x 1) ^ 2 + a2 * (x 1 - x 2),
   a1 * x 3 * (x 0 - x 2) / (x 0 - x 1) ^ 2 + a2 * (x 0 - x 2),
   -a1 * x 3 / (x 0 - x 1) - a2 * (x 0 + x 1 - 2 * x 2),
   a1 * (x 0 - x 2) / (x 0 - x 1)]

/-- The same without the quadratic term (L209-212, 261-264, 424-427, 476-479). -/
noncomputable def avCov2 (x : Nat → ℝ) (a1 : ℝ) : List ℝ :=
  [a1 * x 3 * (x 2 - x 1) / (x 0 - x 1) ^ 2,
   a1 * x 3 * (x 0 - x 2) / (x 0 - x 1) ^ 2,
   -a1 * x 3 / (x 0 - x 1),
   a1 * (x 0 - x 2) / (x 0 - x 1)]

/-- AVHRR_sensor_models.py L23-50 `sensor_model_ref`; also MW_sensor_models.py L42-65. -/
def refModel : SensorModel ℝ δ := fun X _ _ _ _ _ =>
  match X with
  | [] => .error .indexError
  | x :: _ => .ok (x, none)

/-- L53-106 `sensor_model_3`. -/
noncomputable def avhrr3 : RowFun where
  nargs := 6
  ncov := 4
  npar := 3
  value := fun x a => dotRow [1, avLin x, avQuad x] [a 0, 0.98514 + a 1, a 2]
  derivs := fun x a => avCov x (0.98514 + a 1) (a 2) ++ [1, avLin x, avQuad x]

/-- L109-167 `sensor_model_4`, whose definition has one argument, a tuple (a parameter list in two pairs of brackets, in Python 2). -/
noncomputable def avhrr4 : RowFun where
  nargs := 1
  ncov := 5
  npar := 4
  value := fun x a => dotRow [1, avLin x, avQuad x, x 4] [a 0, 0.98514 + a 1, a 2, a 3]
  derivs := fun x a => avCov x (0.98514 + a 1) (a 2) ++ [a 3] ++ [1, avLin x, avQuad x, x 4]

/-- L170-217 `sensor_model_37_2`, with four arguments. -/
noncomputable def avhrr37_2 : RowFun where
  nargs := 4
  ncov := 4
  npar := 2
  value := fun x a => dotRow [1, avLin x] [a 0, 0.98514 + a 1 / 1000]
  derivs := fun x a => avCov2 x (0.98514 + a 1 / 1000) ++ [1, avLin x]

/-- L220-270 `sensor_model_37_3`, with four arguments. -/
noncomputable def avhrr37_3 : RowFun where
  nargs := 4
  ncov := 5
  npar := 3
  value := fun x a => dotRow [1, avLin x, x 4] [a 0, 0.98514 + a 1, a 2]
  derivs := fun x a => avCov2 x (0.98514 + a 1) ++ [a 2] ++ [1, avLin x, x 4]

/-- L273-326 `sensor_model_3_scaled`. -/
noncomputable def avhrr3Scaled : RowFun where
  nargs := 6
  ncov := 4
  npar := 3
  value := fun x a => dotRow [1, avLin x, avQuad x] [a 0, 0.98514 + a 1 / 1000, a 2 / 1000 / 1000]
  derivs := fun x a => avCov x (0.98514 + a 1 / 1000) (a 2 / 1000 / 1000) ++ [1, avLin x, avQuad x]

/-- L329-382 `sensor_model_4_scaled`, with four arguments. -/
noncomputable def avhrr4Scaled : RowFun where
  nargs := 4
  ncov := 5
  npar := 4
  value := fun x a => dotRow [1, avLin x, avQuad x, x 4 - 285] [a 0, 0.98514 + a 1 / 1000, a 2 / 1000 / 1000, a 3 / 1000]
  derivs := fun x a => avCov x (0.98514 + a 1 / 1000) (a 2 / 1000 / 1000) ++ [a 3 / 1000] ++ [1, avLin x, avQuad x, x 4 - 285]

/-- L385-432 `sensor_model_37_2_scaled`, the same as `sensor_model_37_2`. -/
noncomputable def avhrr37_2Scaled : RowFun := avhrr37_2

/-- L435-485 `sensor_model_37_3_scaled`, with four arguments. -/
noncomputable def avhrr37_3Scaled : RowFun where
  nargs := 4
  ncov := 5
  npar := 3
  value := fun x a => dotRow [1, avLin x, x 4 - 285] [a 0, 0.98514 + a 1 / 1000, a 2 / 1000]
  derivs := fun x a => avCov2 x (0.98514 + a 1 / 1000) ++ [a 2 / 1000] ++ [1, avLin x, x 4 - 285]

/-! ### Natural constants (HIRS_sensor_models.py L24-37, MW_sensor_models.py L25-35) -/

noncomputable def planckH : ℝ := 6.626070040e-34
noncomputable def lightC : ℝ := 299792458
noncomputable def boltzK : ℝ := 1.38064852e-23
noncomputable def tCMB : ℝ := 2.72548

/-- HIRS_sensor_models.py L129-130, MW_sensor_models.py L176-177 `planck`. -/
noncomputable def planck (v T : ℝ) : ℝ := 2.0 * planckH * v ^ 3 / lightC ^ 2 / (Real.exp (v * planckH / (boltzK * T)) - 1)

/-! ### HIRS -/

/-- HIRS_sensor_models.py L41-62 `sensor_model_ref`: `sensor_model_variables[0]` is the first *row* of the array. -/
def hirsRef : SensorModel ℝ δ := fun X _ _ _ _ _ => do
  let row ← X.mapM fun col => pyGet col 0
  pure (row, none)

/-- HIRS_sensor_models.py L97-100: radiance of the calibration target. `c` are the constants v, a, b; column 3 is the temperature. -/
noncomputable def hirsExp (c : Nat → ℝ) (x : Nat → ℝ) : ℝ := Real.exp (c 0 * planckH / (boltzK * (c 1 + c 2 * x 3)))
noncomputable def hirsRict (c : Nat → ℝ) (x : Nat → ℝ) : ℝ := 2.0 * planckH * c 0 ^ 3 / lightC ^ 2 / (hirsExp c x - 1)

/-- HIRS_sensor_models.py L65-126 `sensor_model_3` for given constants. Columns: space count, ICT count, Earth count, ICT temperature, self-emission. -/
noncomputable def hirs3 (c : Nat → ℝ) : RowFun where
  nargs := 6
  ncov := 5
  npar := 3
  value := fun x a => dotRow [1, hirsRict c x * (x 2 - x 0) / (x 1 - x 0), (x 2 - x 1) * (x 2 - x 0)] [a 0, 0.98 + a 1, a 2] - x 4
  derivs := fun x a =>
    [(0.98 + a 1) * hirsRict c x * (x 2 - x 1) / (x 1 - x 0) ^ 2 - a 2 * (x 2 - x 1),
     -(0.98 + a 1) * hirsRict c x * (x 2 - x 0) / (x 1 - x 0) ^ 2 - a 2 * (x 2 - x 0),
     (0.98 + a 1) * hirsRict c x / (x 1 - x 0) + a 2 * (2 * x 2 - x 0 - x 1),
     ((0.98 + a 1) * (x 2 - x 0) / (x 1 - x 0)) * hirsRict c x * hirsExp c x / (hirsExp c x - 1.0) * (2.0 * planckH * c 0 * c 2) /
       (boltzK * (c 1 + c 2 * x 3) ^ 2),
     -1.0 * 1,
     1, hirsRict c x * (x 2 - x 0) / (x 1 - x 0), (x 2 - x 1) * (x 2 - x 0)]

/-- `sensor_model_3` with its list of constants: `IndexError` if one is missing. -/
noncomputable def hirsModel : SensorModel ℝ δ := fun X a c xt al t =>
  if c.length < 3 then .error .indexError else (hirs3 fun j => c.getD j 0).call X a c xt al t

/-! ### Microwave -/

/-- The constants of MW_sensor_models.py L100-111 for one match-up: five weights, v, a, b, dTw, and the antenna correction and Earth angle of its
across-track position. -/
structure MwConst where
  w : Nat → ℝ
  v : ℝ
  a : ℝ
  b : ℝ
  dTw : ℝ
  g : ℝ
  thetaE : ℝ

noncomputable def thetaS : ℝ := Real.pi * 73.6 / 180.0
noncomputable def MwConst.wtot (k : MwConst) : ℝ := k.w 0 + k.w 1 + k.w 2 + k.w 3 + k.w 4
/-- L119-122. Columns: space count, ICT count, five temperatures, Earth count (and LO temperature, unused). -/
noncomputable def MwConst.tict (k : MwConst) (x : Nat → ℝ) : ℝ := (k.w 0 * x 2 + k.w 1 * x 3 + k.w 2 * x 4 + k.w 3 * x 5 + k.w 4 * x 6) / k.wtot
noncomputable def MwConst.lict (k : MwConst) (x : Nat → ℝ) : ℝ := planck k.v (k.a + k.b * (k.tict x + k.dTw))
noncomputable def MwConst.ls (k : MwConst) (a3 : ℝ) : ℝ := planck k.v (k.a + k.b * (tCMB + a3))
noncomputable def MwConst.lcmb (k : MwConst) : ℝ := planck k.v (k.a + k.b * tCMB)
noncomputable def MwConst.cosangs (k : MwConst) : ℝ := Real.cos (2 * k.thetaE) - Real.cos (2 * thetaS)
/-- L125 -/
noncomputable def MwConst.lmePrime (k : MwConst) (x p : Nat → ℝ) : ℝ :=
  k.lict x + (k.lict x - k.ls (p 2)) / (x 1 - x 0) * (x 7 - x 1) + p 0 * (k.lict x - k.lcmb) ^ 2 / (x 1 - x 0) ^ 2 * (x 7 - x 1) * (x 7 - x 0)
/-- L168 -/
noncomputable def MwConst.rj (k : MwConst) : ℝ := lightC ^ 2 / (2.0 * k.v ^ 2 * boltzK)
/-- L126-130, L169: the measurand. -/
noncomputable def MwConst.value (k : MwConst) (x p : Nat → ℝ) : ℝ :=
  k.rj * (1.0 / k.g * (k.lmePrime x p + 0.5 * p 1 * k.cosangs * (k.lict x - k.lmePrime x p) - (1.0 - k.g) * k.lcmb))
/-- L142-144 `dLdTICT`. -/
noncomputable def MwConst.dT (k : MwConst) (x p : Nat → ℝ) : ℝ :=
  1.0 / k.g * (1 + (x 7 - x 1) / (x 1 - x 0) + 2 * p 0 * (x 7 - x 0) * (x 7 - x 1) * (k.lict x - k.ls (p 2)) / (x 1 - x 0) ^ 2) *
    (k.lict x * (2 * planckH * k.v * boltzK * k.b) / (boltzK * (k.a + k.b * (k.tict x + k.dTw))) ^ 2 *
      Real.exp (planckH * k.v / (boltzK * (k.a + k.b * (k.tict x + k.dTw)))) / (Real.exp (planckH * k.v / (boltzK * (k.a + k.b * (k.tict x + k.dTw)))) - 1))
/-- L132-170: the row of derivatives: nine covariates, three parameters. -/
noncomputable def MwConst.derivs (k : MwConst) (x p : Nat → ℝ) : List ℝ :=
  ([1.0 / k.g * (x 7 - x 1) * (k.lict x - k.ls (p 2)) / (x 1 - x 0) ^ 2 * (1 + p 0 * (2 * x 7 - x 1 - x 0) / (x 1 - x 0)),
    1.0 / k.g * (x 7 - x 0) * (k.lict x - k.ls (p 2)) / (x 1 - x 0) ^ 2 * (1 + p 0 * (k.lict x - k.ls (p 2)) * (2 * x 7 - x 1 - x 0) / (x 1 - x 0)),
    k.dT x p * k.w 0 / k.wtot, k.dT x p * k.w 1 / k.wtot, k.dT x p * k.w 2 / k.wtot, k.dT x p * k.w 3 / k.wtot, k.dT x p * k.w 4 / k.wtot,
    1.0 / k.g * ((k.lict x - k.ls (p 2)) / (x 1 - x 0) + p 0 * (k.lict x - k.ls (p 2)) ^ 2 / (x 1 - x 0) ^ 2) * (2 * x 7 - x 1 - x 0),
    0,
    1.0 / k.g * (x 7 - x 0) * (x 7 - x 1) * (k.lict x - k.ls (p 2)) ^ 2 / (x 1 - x 0) ^ 2,
    1.0 / (2.0 * k.g) * (k.lict x - k.lmePrime x p) * k.cosangs,
    -1.0 / k.g * (x 7 - x 1) / (x 1 - x 0) * (1.0 + 2.0 * p 0 * (x 7 - x 0) * (k.lict x - k.ls (p 2)) / (x 1 - x 0)) *
      (1.0 - p 1 / (2.0 * k.g) * k.cosangs)] : List ℝ).map (k.rj * ·)

/-- L100-111: the constants of the match-up at across-track position `i`; `constant[-9]` counts from the end, `constant[i]` from the start. -/
noncomputable def mwConst (c : List ℝ) (i : ℝ) : MwConst where
  w := fun j => c.reverse.getD (8 - j) 0
  v := c.reverse.getD 3 0
  a := c.reverse.getD 2 0
  b := c.reverse.getD 1 0
  dTw := c.reverse.getD 0 0
  g := c.getD ⌊i⌋₊ 0
  thetaE := Real.pi * 1.111 * (i - 45.5) / 180.0

/-- MW_sensor_models.py L68-173 `sensor_model_3`.  Without across-track indices (`None`) the loop over them raises `TypeError`.  Simplifications: missing
constants or too short a list of indices are not told apart (numpy raises `IndexError` or `ValueError`). -/
noncomputable def mwModel : SensorModel ℝ δ := fun X a c xt _ _ =>
  match xt with
  | none => .error .typeError
  | some idx =>
    if X.length < 8 ∨ a.length < 3 ∨ c.length < 9 ∨ (∃ i ∈ idx, ¬ ⌊i⌋₊ < c.length) then .error .indexError
    else if idx.length ≠ (X.headD []).length then .error .valueError
    else
      let row := fun (i : Nat) (j : Nat) => (X.getD j []).getD i 0
      .ok ((List.range idx.length).map fun i => (mwConst c (idx.getD i 0)).value (row i) fun j => a.getD j 0,
        some ((List.range 12).map fun j => (List.range idx.length).map fun i => ((mwConst c (idx.getD i 0)).derivs (row i) fun j => a.getD j 0).getD j 0))

end Verif
