import Verif.Model.Reader
/-
Specification vocabulary for the match-up reader, in terms of the files only.
-/
set_option autoImplicit false
namespace Verif
variable {α : Type _}

/-- The two sensors of each file differ, and a sensor has the same number of covariates in every file. -/
def ConsistentFiles (ds : List (Dataset α)) : Prop :=
  (∀ d ∈ ds, d.s1.name ≠ d.s2.name) ∧
  ∀ d ∈ ds, ∀ e ∈ ds, ∀ s ∈ [d.s1, d.s2], ∀ t ∈ [e.s1, e.s2], s.name = t.name → s.m = t.m

/-- File number `series` (counted from 1) has a data column number `cov` (counted from 1) for the sensor `name`, and `col` is that
column. -/
def FileColumn (ds : List (Dataset α)) (name : String) (series cov : Nat) (col : List α) : Prop :=
  ∃ d s, 1 ≤ series ∧ ds[series - 1]? = some d ∧ (s = d.s1 ∨ s = d.s2) ∧ s.name = name ∧
    1 ≤ cov ∧ cov ≤ s.m ∧ col = (List.range d.M).map (fun r => s.X r (cov - 1))

end Verif
