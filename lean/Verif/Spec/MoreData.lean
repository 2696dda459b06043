import Verif.Spec.OrderCov
/-
Some of the files of a harmonisation.
-/
set_option autoImplicit false
namespace Verif
variable {α : Type}

/-- `ds'` are some of the files `ds`, each taken once: file number `i` of `ds'` is file number `σ i` of `ds` (all from 0). -/
structure SomeOf (ds ds' : List (Dataset α)) (σ : Nat → Nat) : Prop where
  maps : ∀ i, i < ds'.length → σ i < ds.length
  inj : ∀ i j, i < ds'.length → j < ds'.length → σ i = σ j → i = j
  file : ∀ i, i < ds'.length → ds'[i]? = ds[σ i]?

/-- Every sensor of the files `ds` is a sensor of the files `ds'`. -/
def NoNewSensor (ds ds' : List (Dataset α)) : Prop := ∀ d ∈ ds, ∀ s, d.HasSide s → ∃ d' ∈ ds', ∃ s', d'.HasSide s' ∧ s'.name = s.name

end Verif
