import Verif.Model.Sample
/-
Model of `core/matchup/matchupProcessing/sample/SampleMatchUp.py` (`SampleMatchUp.run`). `MatchUpSample.a`, `sensor_model`, … (L93-96) are copied and cannot fail; printing is not
modelled. The uncertainties are an argument, since they are `None` if the match-up was opened without them. What follows L146 in a turn of the loop, and the sampling of K (L168-186), cannot be
reached if there is a block of data, and are not modelled.
-/
set_option autoImplicit false
namespace Verif
variable {α δ : Type}

/-- `u.form` (L146): Uncertainty.py L98-123 sets `typeID`, `type`, `uR`, `uS`, `w_i`, `u_i` and no `form`. -/
def uncForm (_ : Unc α) : Py String := .error .attributeError

/-- L73-83: the sampled positions of one series; `/` of integers, Python 2. -/
def randomSample (rnd : List Nat → Nat → List Nat) (mu : MatchUp α δ) (sf : Nat) (n_mu : Nat) : Py (List Nat) := do
  let b ← pyIndex mu.idx.n_mu n_mu
  let mu_total ← pyGet mu.idx.N_var b
  if sf = 0 then .error .zeroDivisionError
  else do
    let s ← pySample rnd (List.range mu_total) (mu_total / sf)
    pure (pySorted s)

/-- L131-146: one block, up to the test of its form. -/
def randomBlock (mu : MatchUp α δ) (samples : List (Nat × List Nat)) (u : UncBlock α) (i : Nat) : Py (List α) := do
  let istart ← pyGet mu.idx.idx i
  let iend ← pyGet mu.idx.idx (i + 1)
  let n ← pyGet mu.idx.n_mu i
  let s_idx ← lookupSample samples n
  let v ← takeAt (slice mu.values istart iend) s_idx
  let _ ← uncForm u.unc
  pure v

/-- L38-188 `run`: the sampled values; `unc` is `None` if uncertainties were not opened (`enumerate(None)`, L131, is a `TypeError`). -/
def sampleMatchUp (rnd : List Nat → Nat → List Nat) (mu : MatchUp α δ) (unc : Option (List (UncBlock α))) (sf : Nat) : Py (List α) := do
  let samples ← (seriesSet mu.idx.n_mu).mapM fun n => do
    let s ← randomSample rnd mu sf n
    pure (n, s)
  let _ ← mu.idx.n_mu.mapM (lookupSample samples)
  match unc with
  | none => .error .typeError
  | some us => do
    let vs ← us.zipIdx.mapM fun ui => randomBlock mu samples ui.1 ui.2
    pure vs.flatten

end Verif
