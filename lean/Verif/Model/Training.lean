import Verif.Model.Py
import Mathlib.Algebra.BigOperators.Fin
import Mathlib.Algebra.Order.Field.Basic
/-
The functions of the regridding lecture: training/workshop_2019/Uncertainty_Functions.py (Python 3) and the picture which
training/workshop_2019/regridding_interactive_lecture.ipynb draws with them.
-/
set_option autoImplicit false
namespace Verif
namespace Regrid
open scoped BigOperators
variable {α : Type} {r c : Nat}

/-- A picture with `r` rows and `c` columns. -/
abbrev Image (r c : Nat) (α : Type) := Fin r → Fin c → α

/-- A numpy index into an axis of length `n`: negative indices count from the end; `IndexError` outside. -/
def axisIndex (n : Nat) (k : Int) : Py (Fin n) :=
  if h : 0 ≤ k ∧ k < n then .ok ⟨k.toNat, by omega⟩
  else if h : -n ≤ k ∧ k < 0 then .ok ⟨(k + n).toNat, by omega⟩
  else .error .indexError

variable [Field α] [LinearOrder α]

/-- training/workshop_2019/Uncertainty_Functions.py L18-20: the loop over the pixels of the window; `x1` and `y1` are computed from the centre before. -/
def fillWindow (data : Image r c α) (x1 y1 : Int) : List (Nat × Nat) → Image r c α → Py (Image r c α)
  | [], w => .ok w
  | (i, j) :: rest, w => do
    let p ← axisIndex r (x1 + i - 1)
    let q ← axisIndex c (y1 + j - 1)
    fillWindow data x1 y1 rest fun p' q' => if p' = p ∧ q' = q then data p q else w p' q'

/-- training/workshop_2019/Uncertainty_Functions.py L11-22 `Scan(data, size, centre)`: the window and the rest. Simplification: sizes are not negative (a negative size is an
empty window). -/
def scan (data : Image r c α) (size : Nat × Nat) (centre : Int × Int) : Py (Image r c α × Image r c α) := do
  let x1 := centre.2 - (size.2 / 2 : Nat)
  let y1 := centre.1 - (size.1 / 2 : Nat)
  let window ← fillWindow data x1 y1 ((List.range size.2).flatMap fun i => (List.range size.1).map fun j => (i, j)) fun _ _ => 0
  pure (window, fun p q => if data p q = window p q then 0 else data p q)

/-- The three kinds of uncertainty of a picture (training/workshop_2019/Uncertainty_Functions.py L31-32). -/
structure Fields (r c : Nat) (α : Type) where
  independent : Image r c α
  common : Image r c α
  structured : Image r c α

/-- training/workshop_2019/Uncertainty_Functions.py L34-35 (`Averaging=False`): the uncertainty of every pixel. A pixel is an error where numpy has `nan`. -/
def combinedPixels (sqrt : α → Py α) (background : Fields r c α) (param : α) (structured : Bool) : Image r c (Py α) := fun p q =>
  sqrt ((1 - param) * background.independent p q ^ 2 + param * background.common p q ^ 2 + (if structured then 1 else 0) * background.structured p q ^ 2)

/-- training/workshop_2019/Uncertainty_Functions.py L39: the mean of the pixels which are not zero (`nan`, an error, if there are none). -/
def meanNonzero (w : Image r c α) : Py α :=
  let count : Nat := ∑ p, ∑ q, if w p q = 0 then 0 else 1
  if count = 0 then .error .nonFinite else .ok ((∑ p, ∑ q, if w p q = 0 then 0 else w p q) / (count : α))

/-- training/workshop_2019/Uncertainty_Functions.py L36-43: the uncertainty of the average over the window, `n` the number of pixels. An error stands for `nan`. -/
def windowUncertainty (sqrt : α → Py α) (window : Fields r c α) (param : α) (n : Nat) (structured : Bool) : Py α := do
  let idv ← sqrt ((∑ p, ∑ q, if window.independent p q = 0 then 0 else window.independent p q ^ 2) / (n : α) ^ 2)
  let cm ← meanNonzero window.common
  let str ← sqrt (1 / (n : α) * 2 * ((∑ p : Fin r, ∑ q : Fin c, if window.independent p q ^ 2 = 0 then 0 else p.val + q.val : Nat) : α))
  sqrt ((1 - param) * idv ^ 2 + param * cm ^ 2 + (if structured then 1 else 0) * str ^ 2)

/-- training/workshop_2019/Uncertainty_Functions.py L25-46 `CombinedDa`. `1 / N` in L41 is a Python division: `ZeroDivisionError` for an empty window. -/
def combinedDa (sqrt : α → Py α) (window background : Fields r c α) (param : α) (size : Nat) (averaging structured : Bool) : Py (Image r c (Py α)) :=
  if averaging then
    if size ^ 2 = 0 then .error .zeroDivisionError
    else
      let u := windowUncertainty sqrt window param (size ^ 2) structured
      .ok fun p q => if background.independent p q = 0 then u else .ok 0
  else .ok (combinedPixels sqrt background param structured)

/-- training/workshop_2019/regridding_interactive_lecture.ipynb, function `P`: the picture of the combined uncertainties, with the window at `X`, `Y` averaged. -/
def picture (sqrt : α → Py α) (u : Fields r c α) (param : α) (size : Nat) (x y : Int) : Py (Image r c (Py α)) := do
  let i ← scan u.independent (size, size) (x, y)
  let k ← scan u.common (size, size) (x, y)
  let s ← scan u.structured (size, size) (x, y)
  let window : Fields r c α := ⟨i.1, k.1, s.1⟩
  let background : Fields r c α := ⟨i.2, k.2, s.2⟩
  let back ← combinedDa sqrt window background param size false false
  let win ← combinedDa sqrt window background param size true false
  pure fun p q => do pure ((← back p q) + (← win p q))

end Regrid
end Verif
