import Verif.Model.SensorData
import Mathlib.Algebra.Field.Defs
/-
Model of `harmonisation_eiv/harmonisation/core/matchup/matchupProcessing/simulate_matchup/SimulateMatchUp.py`. Numbers are those of a field (the code stores
`float32`); the printing of L73-90 (`verbose`) is not modelled.
-/
set_option autoImplicit false
namespace Verif

/-- Python's `min` of a list of values: `ValueError` when empty. -/
def pyMinOf {α : Type} [Min α] (l : List α) : Py α :=
  match l with
  | [] => .error .valueError
  | x :: xs => .ok (xs.foldl min x)

/-- `numpy.linspace(lo, hi, n)`: `lo + i * step`, with the last value set to `hi` exactly when there is more than one. -/
def linspace {α : Type} [Field α] (lo hi : α) (n : Nat) : List α :=
  (List.range n).map fun i => if 1 < n ∧ i = n - 1 then hi else lo + (i : α) * ((hi - lo) / ((n - 1 : Nat) : α))

/-- L129-131 `space_fill_sim`. -/
def spaceFill {α : Type} [Field α] [Min α] [Max α] (values : List α) (n : Nat) : Py (List α) := do
  let lo ← pyMinOf values
  let hi ← pyMaxOf values
  pure (linspace lo hi n)

/-- L119-127 `return_simulation_x`: the blocks of `x` between consecutive boundaries, each replaced by its simulation. -/
def simulateX {α : Type} [Field α] [Min α] [Max α] (x : List α) (idx sim : List Nat) : Py (List α) := do
  let n ← pyGet sim (sim.length - 1)
  ((idx.zip idx.tail).zip (sim.zip sim.tail)).foldlM (fun out b => do
    let v ← spaceFill (slice x b.1.1 b.1.2) (b.2.2 - b.2.1)
    setSlice out b.2.1 b.2.2 v) (List.replicate n 0)

/-- L94-117 `return_simulation_idx`. -/
def simulateIdx (x : Idx) (n : Nat) : Idx :=
  let N_var := x.N_var.map fun _ => n
  let Nm := x.Nm.map fun _ => n
  { x with N_var := N_var, Nm := Nm, idx := prefixSums N_var, cNm := prefixSums Nm }

/-- L42-92 `run`. The uncertainties, times, track indices and W/u matrices of the new object are those of an empty `MatchUp()` (the remark of L91). -/
def simulate {α δ ρ σ : Type} [Field α] [Min α] [Max α] (m : MatchUpS α δ ρ σ) (n : Nat) : Py (MatchUpS α δ ρ σ) := do
  let x := simulateIdx m.mu.idx n
  let values ← simulateX m.mu.values m.mu.idx.idx x.idx
  let ks ← simulateX m.mu.ks m.mu.idx.cNm x.cNm
  pure { m with mu := { idx := x, original_idx := m.mu.original_idx, values := values, ks := ks, unck := [], unc := [], w_matrices := [], u_matrices := []
                        time1 := none, time2 := none, across_track_index1 := none, across_track_index2 := none, along_track_index1 := none
                        along_track_index2 := none, additional_values := none } }

end Verif
