import Verif.Model.GN
import Verif.Model.Krylov
/-
The linear solves of the Gauss-Newton algorithm: GN_algo.py L217-241 with pykrylov_lsmr.py, and GN_algo.py L925-952 with pykrylov_minres.py
(all under EIV/core/matchup/matchupToolbox/harmonisation/harmonisationProcessing/harmonisation_eiv).
-/
set_option autoImplicit false
namespace Verif
variable {α δ : Type} [Field α] [LinearOrder α]

/-- A one-dimensional array of the size an operator declares; scipy's `LinearOperator` raises `ValueError` for another size. -/
def toVec (n : Nat) (l : List α) : Py (Fin n → α) := if l.length = n then .ok fun i => l.getD i 0 else .error .valueError

/-- scipy's `LinearOperator` with `n` columns and `m` rows around a method. -/
def operator {n : Nat} (m : Nat) (f : List α → Py (List α)) (v : Fin n → α) : Py (Fin m → α) := do
  let r ← f (List.ofFn v)
  toVec m r

/-- GN_algo.py L204-241: `LSMROp.solve(-residuals, damp=0, atol=tolA, btol=tolA, conlim=tolB, itnlim=ceil(N_var))` on the operator of `get_JPx` and `get_JPTx`, and
the attribute `x` of the object afterwards. -/
def GN.lsmrObject (o : LsmrOpts α) (sqrt : α → Py α) : LsmrObject α δ := fun g b held => do
  let N_mu ← pyLast g.hd.mu.idx.cNm
  let N_var ← pyLast g.hd.mu.idx.idx
  let n := N_var + g.hd.a.length
  let m := N_var + N_mu
  let b ← toVec m b
  let r ← Lsmr.solve { o with damp := 0, itnlim := N_var } sqrt (operator (n := n) m g.getJPx) (operator (n := m) n g.getJPTx) b none
  pure ((r.2.map List.ofFn).or held)

/-- GN_algo.py L925-949: `MinresOp.solve(calc_Px(d, transpose=True), rtol=tolU, itnlim=500)` on the operator of `calc_Hx`, and the attribute `x` of the new object
afterwards. `probes` are the random vectors of the symmetry test. -/
def GN.minresObject (o : MinresOpts α) (sqrt : α → Py α) (probes : (n : Nat) → List (Fin n → α)) : GN α δ → List α → Py (List α) := fun g b => do
  let N_var ← pyLast g.hd.mu.idx.idx
  let n := N_var + g.hd.a.length
  let b ← toVec n b
  let st ← Minres.solve { o with itnlim := 500 } sqrt (operator (n := n) n g.calcHx) (probes n) b
  pure (List.ofFn st.x)

end Verif
