import Verif.Spec.WMatrix
import Verif.Spec.Solver
import Mathlib.Algebra.BigOperators.Ring.Finset
/-
The error covariance which match-up files declare, and the generalised-least-squares objective it defines.

A match-up object has blocks `b` (one sensor, one series, one variable); position `(b, r)` is match-up `r` of block `b`.
-/
set_option autoImplicit false
namespace Verif
variable {α δ : Type}

/-- Number of blocks. -/
def MatchUp.numBlocks (mu : MatchUp α δ) : Nat := mu.idx.N_var.length

/-- Number of match-ups of block `b`. -/
def MatchUp.blockLen (mu : MatchUp α δ) (b : Nat) : Nat := mu.idx.N_var.getD b 0

/-- The element of position `(b, r)` in a one-dimensional array with the blocks one after another. -/
def MatchUp.elem [Zero α] (mu : MatchUp α δ) (vals : List α) (b r : Nat) : α := vals.getD ((mu.idx.N_var.take b).sum + r) 0

variable [Field α]

/-- The weight of input `j` in row `r` of a W matrix: the sum of the stored elements of this row and column. -/
def CSR.weight (w : CSR α) (r j : Nat) : α := (((w.rowEntries r).filter fun e => e.1 == j).map (·.2)).sum

/-- Covariance of the random errors of match-ups `r` and `r'` of one block: independent errors with the given standard uncertainties, or weighted averages of
inputs with independent errors. -/
def UncBlock.randomCov (mu : MatchUp α δ) (u : UncBlock α) (r r' : Nat) : α :=
  match u.unc with
  | .independent uR => if r = r' then uR.getD r 0 * uR.getD r 0 else 0
  | .systematic uR _ => if r = r' then uR.getD r 0 * uR.getD r 0 else 0
  | .structured w_i u_i => match mu.w_matrices[w_i]?, mu.u_matrices[u_i]? with
    | some (some w), some (some uv) => ∑ j ∈ Finset.range w.ncols, w.weight r j * (uv.getD j 0 * uv.getD j 0) * w.weight r' j
    | _, _ => 0
  | .structuredSystematic w_i u_i _ => match mu.w_matrices[w_i]?, mu.u_matrices[u_i]? with
    | some (some w), some (some uv) => ∑ j ∈ Finset.range w.ncols, w.weight r j * (uv.getD j 0 * uv.getD j 0) * w.weight r' j
    | _, _ => 0

/-- Standard uncertainty, at match-up `r`, of the systematic effect of a block: zero without one; the weighted average for averaged data. -/
def UncBlock.sysUnc (mu : MatchUp α δ) (u : UncBlock α) (r : Nat) : α :=
  match u.unc with
  | .systematic _ uS => uS.getD r 0
  | .structuredSystematic w_i _ uS => match mu.w_matrices[w_i]? with
    | some (some w) => ∑ j ∈ Finset.range w.ncols, w.weight r j * uS
    | _ => 0
  | _ => 0

/-- The covariance declared for positions `(b, r)` and `(b', r')`: random errors are shared within a block only; an effect is shared by all blocks with the same
number of systematic effect, with full correlation. -/
def MatchUp.declaredCov (mu : MatchUp α δ) (b r b' r' : Nat) : α :=
  match mu.unc[b]?, mu.unc[b']? with
  | some u, some u' => (if b = b' then u.randomCov mu r r' else 0) + (if u.uS_i = u'.uS_i then u.sysUnc mu r * u'.sysUnc mu r' else 0)
  | _, _ => 0

/-- Sum of products over all positions. -/
def MatchUp.pairing (mu : MatchUp α δ) (y z : Nat → Nat → α) : α :=
  ∑ b ∈ Finset.range mu.numBlocks, ∑ r ∈ Finset.range (mu.blockLen b), y b r * z b r

/-- `V y`, for the declared covariance `V`. -/
def MatchUp.covMul (mu : MatchUp α δ) (y : Nat → Nat → α) (b r : Nat) : α :=
  ∑ b' ∈ Finset.range mu.numBlocks, ∑ r' ∈ Finset.range (mu.blockLen b'), mu.declaredCov b r b' r' * y b' r'

/-- `q` is `dᵀ V⁻¹ d` for an array `d` of residuals: `yᵀ d` for a solution `y` of `V y = d`. -/
def MatchUp.WeightedSq (mu : MatchUp α δ) (d : List α) (q : α) : Prop :=
  ∃ y : Nat → Nat → α, (∀ b r, b < mu.numBlocks → r < mu.blockLen b → mu.covMul y b r = mu.elem d b r) ∧ q = mu.pairing y (mu.elem d)

/-- `Σ (d / u)²` for an array `d` of K residuals and the uncertainties of K. -/
def MatchUp.kObjective (mu : MatchUp α δ) (d : List α) : α :=
  dotp (List.zipWith (· / ·) d mu.unck.flatten) (List.zipWith (· / ·) d mu.unck.flatten)

/-- The first variable of a reference sensor (it is its measurand, and the model gives no derivatives) has independent errors only. -/
def Evaluable.PlainReferences (ms : Evaluable α δ) : Prop :=
  ∀ (i s q : Nat) (pair : Nat × Nat) (f : SensorModel α δ) (name : String) (clabels : List String), ms.mu.idx.Im[i]? = some pair → s = pair.1 ∨ s = pair.2 →
    ms.sensor_model[s]? = some f → ms.mu.idx.sensor_ms[s]? = some q → ms.mu.idx.sensors[s]? = some name → ms.mu.idx.constant_sensor = some clabels →
    f.Reference q (labelled clabels ms.constant name) →
    ∀ (b : Nat) (u : UncBlock α), ms.mu.idx.blocks[b]? = some (s, i + 1, 1) → ms.mu.unc[b]? = some u → u.unc.typeID = 1

end Verif
