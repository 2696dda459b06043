import Verif.Model.Krylov
/-
The numerical utilities of the Krylov package.
HE = harmonisation_eiv/harmonisation/core/matchup/matchupToolbox/harmonisation/harmonisationProcessing/harmonisation_eiv.
-/
set_option autoImplicit false
namespace Verif
open Matrix
variable {α : Type} {n : Nat} [Field α] [LinearOrder α]

/-- HE/pykrylov_tools_utils.py L50-56: one Newton iteration; the root stays where the derivative is zero. -/
def newtonStep (a2 a1 a0 root : α) : α :=
  let val := (a2 * root + a1) * root + a0
  let der := 2 * a2 * root + a1
  if der = 0 then root else root - val / der

/-- HE/pykrylov_tools_utils.py L49-56: `nitref` Newton iterations. -/
def newtonRefine (a2 a1 a0 : α) : Nat → α → α
  | 0, root => root
  | k + 1, root => newtonRefine a2 a1 a0 k (newtonStep a2 a1 a0 root)

/-- HE/pykrylov_tools_utils.py L12-60 `roots_quadratic`. Division by a zero float raises `ZeroDivisionError`. Simplification: exact numbers; a zero `a1` counts as positive in
`copysign` (with `-0.0` the two roots are swapped). -/
def rootsQuadratic (sqrt : α → Py α) (a2 a1 a0 tol : α) (nitref : Nat) : Py (List α) :=
  let refine := fun roots : List α => roots.map (newtonRefine a2 a1 a0 nitref)
  if a2 = 0 then
    if a1 = 0 then
      if a0 = 0 then .ok [0] else .ok []
    else .ok (refine [-a0 / a1])
  else if tol * a1 * a1 < |a0 * a2| then
    let rho := a1 * a1 - 4 * a2 * a0
    if rho < 0 then .ok []
    else do
      let s ← sqrt rho
      let d := -(1 / 2) * (a1 + if a1 < 0 then -s else s)
      if d = 0 then .error .zeroDivisionError else pure (refine [d / a2, a0 / d])
  else .ok (refine [-a1 / a2, 0])

/-- HE/pykrylov_tools_utils.py L88-113 `check_positive_definite` of an operator from `n` to `m` numbers: `probes` are the random vectors. Simplification: real operators (L105 tests the
imaginary part of complex ones). -/
def checkPositiveDefinite {m : Nat} (A : (Fin n → α) → Py (Fin m → α)) (semi : Bool) (probes : List (Fin n → α)) : Py Bool :=
  if h : m = n then go (fun v => do let w ← A v; pure fun i => w (Fin.cast h.symm i)) probes else .ok false
where
  /-- L100-113: the loop. -/
  go (A : (Fin n → α) → Py (Fin n → α)) : List (Fin n → α) → Py Bool
    | [] => .ok true
    | v :: probes => do
      let w ← A v
      let vw := v ⬝ᵥ w
      if semi then
        if vw < 0 then pure false else go A probes
      else if vw ≤ 0 then pure false else go A probes

end Verif
