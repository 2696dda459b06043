import Verif.Model.Writer
import Verif.Spec.Reader
/-
What it means for arrays to be written to match-up files and found again by the reader.
-/
set_option autoImplicit false
namespace Verif
variable {α δ : Type}

/-- Column `c` of an array. -/
def Arr.col (a : Arr α) (c : Nat) : List α := (List.range a.nrows).map fun r => a.val r c

/-- All arrays of a side have one row per match-up and one column per covariate. -/
structure SideArrays.Fits (s : SideArrays α) (M : Nat) : Prop where
  X : s.X.nrows = M
  Ur : s.Ur.nrows = M ∧ s.Ur.ncols = s.X.ncols
  Us : s.Us.nrows = M ∧ s.Us.ncols = s.X.ncols
  utype : s.utype.length = s.X.ncols

/-- The arrays of a file fit together; additional variables have one value per match-up, and names of their own. -/
structure FileArrays.Fits (f : FileArrays α) : Prop where
  s1 : f.s1.Fits f.s1.X.nrows
  s2 : f.s2.Fits f.s1.X.nrows
  K : f.K.length = f.s1.X.nrows ∧ f.Kr.length = f.s1.X.nrows ∧ f.Ks.length = f.s1.X.nrows
  time : f.time1.length = f.s1.X.nrows ∧ f.time2.length = f.s1.X.nrows
  additional : ∀ v ∈ f.additional, v.2.dims = ["M"] ∧ v.2.data.length = f.s1.X.nrows ∧ v.1 ∉ writtenNames
  names : (f.additional.map (·.1)).Nodup

/-- The two sensors of a file differ, and a sensor has equally many covariates in all files. -/
def ConsistentArrays (fs : List (FileArrays α)) : Prop :=
  (∀ f ∈ fs, f.s1.name ≠ f.s2.name) ∧
  ∀ f ∈ fs, ∀ g ∈ fs, ∀ s ∈ [f.s1, f.s2], ∀ t ∈ [g.s1, g.s2], s.name = t.name → s.X.ncols = t.X.ncols

/-- The match-up object holds what was given for the sensor `s` in series `i` (counted from 0), apart from structured uncertainties. -/
structure MatchUp.Holds [DecidableEq α] (mu : MatchUp α δ) (i : Nat) (s : SideArrays α) : Prop where
  values : ∀ c, c < s.X.ncols → mu.getVariableData (c + 1) s.name (.num (i + 1)) = .ok (s.X.col c)
  unc : ∀ c, c < s.X.ncols → ∃ (keys : List (String × Nat × Nat)) (b : Nat) (u : UncBlock α), mu.idx.nameBlocks = .ok keys ∧ keys[b]? = some (s.name, i + 1, c + 1) ∧
    mu.unc[b]? = some u ∧ (s.utype[c]? = some 1 → u.unc = .independent (s.Ur.col c)) ∧ (s.utype[c]? = some 2 → u.unc = .systematic (s.Ur.col c) (s.Us.col c))

end Verif
