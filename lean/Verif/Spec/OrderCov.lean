import Verif.Spec.Order
/-
The same estimate of the measurements of files which are read in two orders.
-/
set_option autoImplicit false
namespace Verif
variable {α δ : Type}

/-- `ds'` are the files `ds` in another order: file number `i` of `ds'` is file number `σ i` of `ds` (all from 0). -/
structure Reordered (ds ds' : List (Dataset α)) (σ : Nat → Nat) : Prop where
  length : ds'.length = ds.length
  maps : ∀ i, i < ds.length → σ i < ds.length
  inj : ∀ i j, i < ds.length → j < ds.length → σ i = σ j → i = j
  file : ∀ i, i < ds.length → ds'[i]? = ds[σ i]?

/-- The arrays of values `v`, of the match-up read from `ds`, and `v'`, of the one read from `ds'`, hold the same value for each measurement (column `c` of the sensor `s` at match-up
`r`) of each file. -/
def SameEstimates [Field α] (ds ds' : List (Dataset α)) (σ : Nat → Nat) (mu mu' : MatchUp α δ) (v v' : List α) : Prop :=
  ∀ i d s c b b', mu.BlockOf ds b (σ i) d s c → mu'.BlockOf ds' b' i d s c → ∀ r, r < d.M → mu'.elem v' b' r = mu.elem v b r

/-- Where the K of match-up `r` of file number `i` is in the array of K of all files. -/
def kIndex (ds : List (Dataset α)) (i r : Nat) : Nat := ((ds.map (·.M)).take i).sum + r

/-- The arrays of K hold the same value for each match-up of each file. -/
def SameK [Zero α] (ds ds' : List (Dataset α)) (σ : Nat → Nat) (k k' : List α) : Prop :=
  ∀ i d r, ds'[i]? = some d → r < d.M → k'.getD (kIndex ds' i r) 0 = k.getD (kIndex ds (σ i) r) 0

end Verif
