import Verif.Spec.Objective
/-
The error covariance declared by match-up files, in terms of the files alone: no numbering of sensors, series or blocks enters.
-/
set_option autoImplicit false
namespace Verif
variable {α δ : Type} [Field α]

/-- Covariance of the random errors of match-ups `r` and `r'` in column `c` of one sensor of a file. -/
def Dataset.randomCov (d : Dataset α) (s : Side α) (c r r' : Nat) : α :=
  if s.utype c = 1 ∨ s.utype c = 2 then (if r = r' then s.Ur r c * s.Ur r c else 0)
  else match openW d (s.wUse c), openU d (s.uUse c) with
    | .ok w, .ok uv => ∑ j ∈ Finset.range w.ncols, w.weight r j * (uv.getD j 0 * uv.getD j 0) * w.weight r' j
    | _, _ => 0

/-- Standard uncertainty, at match-up `r`, of the systematic effect in column `c` of one sensor of a file. -/
def Dataset.sysUnc (d : Dataset α) (s : Side α) (c r : Nat) : α :=
  if s.utype c = 2 then s.Us r c
  else if s.utype c = 4 then match openW d (s.wUse c) with
    | .ok w => ∑ j ∈ Finset.range w.ncols, w.weight r j * s.Us 1 c
    | _ => 0
  else 0

/-- The covariance of match-up `r` in column `c` of the sensor `s` of file number `i` with match-up `r'` in column `c'` of the sensor `s'` of file number `i'`: random errors are shared
within a column of one file; the systematic effect of a column of a sensor is shared by all files. -/
def fileCov (i : Nat) (d : Dataset α) (s : Side α) (c r i' : Nat) (d' : Dataset α) (s' : Side α) (c' r' : Nat) : α :=
  (if i = i' ∧ s.name = s'.name ∧ c = c' then d.randomCov s c r r' else 0) + (if s.name = s'.name ∧ c = c' then d.sysUnc s c r * d'.sysUnc s' c' r' else 0)

/-- Block `b` of an opened match-up holds column `c` of the sensor `s` of file number `i` (all from 0), which is `d`. -/
def MatchUp.BlockOf (mu : MatchUp α δ) (ds : List (Dataset α)) (b i : Nat) (d : Dataset α) (s : Side α) (c : Nat) : Prop :=
  ds[i]? = some d ∧ d.HasSide s ∧ c < s.m ∧ ∃ n, mu.idx.blocks[b]? = some (n, i + 1, c + 1) ∧ mu.idx.sensors[n]? = some s.name

/-- The parameters `a` and the cost `q` are those of an estimate of the solver whose cost (the sum of the squares of its residuals) is the least of all estimates. -/
def GN.Optimal [LE α] (g : GN α δ) (a : List α) (q : α) : Prop :=
  ∃ x f, x.length = g.xyza.length ∧ x.drop g.hd.mu.values.length = a ∧ g.calcF x = .ok f ∧ q = dotp f f ∧
    ∀ x' f', x'.length = g.xyza.length → g.calcF x' = .ok f' → q ≤ dotp f' f'

end Verif
