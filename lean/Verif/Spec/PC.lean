import Verif.Lemmas.PCReady
import Verif.Spec.Matrix
import Verif.Spec.Solver
import Verif.Spec.Krylov
import Mathlib.Data.Matrix.Mul
import Mathlib.LinearAlgebra.Matrix.NonsingularInverse
/-
What the preconditioner is to be compared with.
-/
set_option autoImplicit false
namespace Verif
variable {α δ : Type}

/-- The model makes no use of track indices and times. -/
def SensorModel.IgnoresTimes (f : SensorModel α δ) (m : Nat) (c : List α) (p : Nat) : Prop :=
  ∀ (X : List (List α)) (a : List α) (xt al : Option (List α)) (t : Option (List δ)) (k : Nat), X.length = m → (∀ col ∈ X, col.length = k) → a.length = p →
    f X a c xt al t = f X a c none none none

/-- So for all sensors of all series. -/
def Evaluable.IgnoresTimes (ms : Evaluable α δ) (labels clabels : List String) : Prop :=
  ∀ (i s q : Nat) (pair : Nat × Nat) (name : String) (f : SensorModel α δ), ms.mu.idx.Im[i]? = some pair → s = pair.1 ∨ s = pair.2 →
    ms.mu.idx.sensors[s]? = some name → ms.mu.idx.sensor_ms[s]? = some q → ms.sensor_model[s]? = some f →
    f.IgnoresTimes q (labelled clabels ms.constant name) (labels.count name)

/-- The object with its estimate of the parameters replaced by `a`. -/
def PC.at (p : PC α δ) (a : List α) : PC α δ := { p with xyza := p.xyza.take p.hd.mu.values.length ++ a }

/-- `M v` for the matrix with the columns `M`: entry `r`. -/
def colsMul [Field α] (M : List (List α)) (v : List α) (r : Nat) : α := ((M.zip v).map fun cv => cv.1.getD r 0 * cv.2).sum

/-- The matrix with the given rows. -/
def rowsMat [Zero α] (m n : Nat) (M : List (List α)) : Matrix (Fin m) (Fin n) α := fun i j => entry M i j

/-- The matrix with the given columns. -/
def colsMat [Zero α] (m n : Nat) (M : List (List α)) : Matrix (Fin m) (Fin n) α := fun i j => entry M j i

/-- The vector with the given elements. -/
def listVec [Zero α] (n : Nat) (v : List α) : Fin n → α := fun i => v.getD i 0

section
variable [Field α] [LinearOrder α]

/-- What the numerical routines promise when they return: a factor `L Lᵀ = M`; the solution of the equations; as many parameters as were given; square roots; an
upper triangular R with `Rᵀ R = Jᵀ J`; a solution of the normal equations. -/
structure PCRoutines.Sound (o : PCRoutines α) : Prop where
  chol : ∀ M L n, IsSquare M n → o.chol M = .ok L → IsSquare L n ∧ rowsMat n n L * (rowsMat n n L).transpose = rowsMat n n M
  solve : ∀ L d y n, IsSquare L n → d.length = n → o.solve L d = .ok y → y.length = n ∧ (rowsMat n n L).mulVec (listVec n y) = listVec n d
  lsq : ∀ f a J tol r, o.lsq f a J tol = .ok r → r.1.length = a.length ∧ r.2.length = a.length
  sqrt : IsSqrt o.sqrt
  qrR : ∀ J R m n, J.length = n → (∀ c ∈ J, c.length = m) → o.qrR J = .ok R → R.length = m ∧ (∀ r ∈ R, r.length = n) ∧
    (∀ i j, j < i → entry R i j = 0) ∧ (rowsMat m n R).transpose * rowsMat m n R = (colsMat m n J).transpose * colsMat m n J
  lstsq : ∀ R B U n, (∀ r ∈ R, r.length = n) → IsSquare B n → o.lstsq R B = .ok U → R.length = n ∧ IsSquare U n ∧
    (rowsMat n n R).transpose * rowsMat n n R * rowsMat n n U = (rowsMat n n R).transpose * rowsMat n n B

/-- The least-squares routine returns a point where the gradient `Jᵀ f` vanishes. -/
def PCRoutines.Stationary (o : PCRoutines α) : Prop :=
  ∀ f a J tol r, o.lsq f a J tol = .ok r → ∃ y C, f r.1 = .ok y ∧ J r.1 = .ok C ∧ ∀ c ∈ C, dotp c y = 0

/-- The Euclidean distance of `a` and `b` is less than `tol`. -/
def Closer (tol : α) (a b : List α) : Prop := ∃ r, 0 ≤ r ∧ r * r = dotp (List.zipWith (· - ·) b a) (List.zipWith (· - ·) b a) ∧ r < tol

/-- A history of `n` refinements from object `p`: before refinement `i` the object is `(s i).1` and the estimate `(s i).2`; `L i` is the factor used in it.  The
parameters left in the object are those of the last trial of the least-squares routine.  Refinement goes on until an estimate differs by less than
`tol` from the one before, at most `mx` times. -/
structure PC.History (o : PCRoutines α) (tol : α) (p : PC α δ) (mx n : Nat) (s : Nat → PC α δ × List α) (L : Nat → List (List α)) : Prop where
  start : s 0 = (p, p.hd.a)
  step : ∀ i, i < n → ∃ last, (s i).1.calcLK o.chol = .ok (L i) ∧
    o.lsq ((s i).1.getF (o.solve (L i))) (s i).2 ((s i).1.getJa (o.solve (L i))) tol = .ok ((s (i + 1)).2, last) ∧ (s (i + 1)).1 = p.at last
  some : 1 ≤ n
  bound : n ≤ mx
  goes : ∀ i, i + 1 < n → ¬ Closer tol (s i).2 (s (i + 1)).2
  stops : n = mx ∨ Closer tol (s (n - 1)).2 (s n).2

end

end Verif
