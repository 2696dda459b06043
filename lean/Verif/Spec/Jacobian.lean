import Verif.Spec.Solver
import Mathlib.Analysis.Calculus.Deriv.Basic
/-
What it means for sensor models to be smooth functions of one match-up with the derivatives they declare.
-/
set_option autoImplicit false
namespace Verif
variable {δ : Type}

/-- The row of match-up `r` in an array given by its columns. -/
def rowOf (X : List (List ℝ)) (r : Nat) : List ℝ := X.map fun col => col.getD r 0

/-- `x + t d`, element by element. -/
def along (x d : List ℝ) (t : ℝ) : List ℝ := List.zipWith (fun a b => a + t * b) x d

/-- The sensor model works match-up by match-up, with measurand `φ(row, parameters)` and declared derivatives `dφ(row, parameters, j)` (first the `m`
covariates, then the `p` parameters); it uses neither track indices nor times. -/
def SensorModel.Pointwise (f : SensorModel ℝ δ) (m : Nat) (c : List ℝ) (p : Nat) (φ : List ℝ → List ℝ → ℝ) (dφ : List ℝ → List ℝ → Nat → ℝ) : Prop :=
  ∀ (X : List (List ℝ)) (a : List ℝ) (xt al : Option (List ℝ)) (t : Option (List δ)) (k : Nat),
    X.length = m → (∀ col ∈ X, col.length = k) → a.length = p →
    f X a c xt al t = .ok ((List.range k).map fun i => φ (rowOf X i) a,
      some ((List.range (m + p)).map fun j => (List.range k).map fun i => dφ (rowOf X i) a j))

/-- The declared derivatives are the derivatives of `φ` at the point (row, a): along every direction. -/
def GradientAt (φ : List ℝ → List ℝ → ℝ) (dφ : List ℝ → List ℝ → Nat → ℝ) (row a : List ℝ) : Prop :=
  ∀ row' a' : List ℝ, row'.length = row.length → a'.length = a.length →
    HasDerivAt (fun t => φ (along row row' t) (along a a' t))
      (((List.range row.length).map fun j => dφ row a j * row'.getD j 0).sum + ((List.range a.length).map fun j => dφ row a (row.length + j) * a'.getD j 0).sum) 0

/-- One sensor in one series: its models are smooth at the current estimate, and have the derivatives they declare. A reference sensor must have only
independent uncertainties. -/
def GN.SmoothSide (g : GN ℝ δ) (ms : Evaluable ℝ δ) (labels clabels : List String) (n k s : Nat) : Prop :=
  ∃ name q f B X b b', ms.mu.idx.sensors[s]? = some name ∧ ms.mu.idx.sensor_ms[s]? = some q ∧ ms.sensor_model[s]? = some f ∧
    ms.adjustment_model[s]? = some B ∧
    unconvertXs g.hd.mu.w_matrices g.hd.mu.u_matrices g.xyza g.hd.mu.unc g.hd.mu.idx s n = .ok X ∧
    (∀ R, B R = .ok (R.map b, R.map b')) ∧
    ((∃ φ dφ, f.Pointwise q (labelled clabels ms.constant name) (labels.count name) φ dφ ∧ ∀ r, r < k →
        GradientAt φ dφ (rowOf X r) (labelled labels (g.xyza.drop g.hd.mu.values.length) name) ∧
        HasDerivAt b (b' (φ (rowOf X r) (labelled labels (g.xyza.drop g.hd.mu.values.length) name))) (φ (rowOf X r) (labelled labels (g.xyza.drop g.hd.mu.values.length) name))) ∨
     (f.Reference q (labelled clabels ms.constant name) ∧
        (∀ (j c : Nat) (u : UncBlock ℝ), ms.mu.idx.blocks[j]? = some (s, n, c) → ms.mu.unc[j]? = some u → u.unc.typeID = 1) ∧
        ∀ r, r < k → HasDerivAt b (b' ((X.headD []).getD r 0)) ((X.headD []).getD r 0)))

/-- All sensors of all series. -/
def GN.Smooth (g : GN ℝ δ) (ms : Evaluable ℝ δ) (labels clabels : List String) : Prop :=
  ∀ (i k : Nat) (pair : Nat × Nat), ms.mu.idx.Im[i]? = some pair → ms.mu.idx.Nm[i]? = some k →
    g.SmoothSide ms labels clabels (i + 1) k pair.1 ∧ g.SmoothSide ms labels clabels (i + 1) k pair.2

end Verif
