import Verif.Spec.NormalEquations
import Verif.Spec.Order
/-
The least cost for given parameters.
-/
set_option autoImplicit false
namespace Verif
variable {α δ : Type}

/-- `q` is the least cost of the estimates of the solver with the parameters `a`. -/
def GN.ProfileCost [Field α] [LinearOrder α] (g : GN α δ) (a : List α) (q : α) : Prop :=
  (∃ x, x.length = g.xyza.length ∧ x.drop g.hd.mu.values.length = a ∧ g.CostAt x q) ∧
    ∀ x q', x.length = g.xyza.length → x.drop g.hd.mu.values.length = a → g.CostAt x q' → q ≤ q'

/-- The differences between given K and the K of the files. -/
def kMisfit (mu : MatchUp ℝ δ) (k : List ℝ) : Fin mu.ks.length → ℝ := fun i => k.getD i 0 - mu.ks.getD i 0

/-- The differences between two lists of parameters. -/
def parDiff (P : Nat) (a b : List ℝ) : Fin P → ℝ := fun j => a.getD j 0 - b.getD j 0

end Verif
