import Verif.Model.Reader
/-
Model of the additional-data queries and the life cycle of `MatchUp`
(/repo/harmonisation_eiv/harmonisation/core/matchup/matchupIO/MatchUp.py).
-/
set_option autoImplicit false
namespace Verif

/-- Python's built-in `max` of a list: the first element is kept until a later one compares greater. `lt a b` is `a < b` of the
values, which for floats is false whenever one of them is nan. `ValueError` when empty. -/
def pyMaxLt {α : Type _} (lt : α → α → Bool) : List α → Py α
  | [] => .error .valueError
  | x :: xs => .ok (xs.foldl (fun m v => if lt m v then v else m) x)

/-- Python's built-in `min` of a list: the first element is kept until a later one compares less. -/
def pyMinLt {α : Type _} (lt : α → α → Bool) : List α → Py α
  | [] => .error .valueError
  | x :: xs => .ok (xs.foldl (fun m v => if lt v m then v else m) x)

/-- MatchUp.py L294-295 `getAdditionalDataNames`: the entry of `idx`, a `KeyError` if additional values were not opened. -/
def MatchUp.getAdditionalDataNames {α δ : Type _} (mu : MatchUp α δ) : Py (List String) :=
  match mu.idx.additional_values_name with
  | some n => .ok n
  | none => .error .keyError

/-- MatchUp.py L297-298 `getAdditionalDataMax`. -/
def MatchUp.getAdditionalDataMax {α δ : Type _} (lt : α → α → Bool) (mu : MatchUp α δ) (name : String)
    (matchup_number : Option Nat) : Py α := do
  let l ← mu.getAdditionalData name matchup_number
  pyMaxLt lt l

/-- MatchUp.py L300-301 `getAdditionalDataMin`. -/
def MatchUp.getAdditionalDataMin {α δ : Type _} (lt : α → α → Bool) (mu : MatchUp α δ) (name : String)
    (matchup_number : Option Nat) : Py α := do
  let l ← mu.getAdditionalData name matchup_number
  pyMinLt lt l

/-! ### Closing -/

/-- The attributes of an object by name (`vars(self)`). -/
abbrev Attrs (V : Type _) := List (String × V)

/-- `getattr`: `AttributeError` if absent. -/
def Attrs.get {V : Type _} (o : Attrs V) (n : String) : Py V :=
  match o.lookup n with
  | some v => .ok v
  | none => .error .attributeError

/-- `delattr`: `AttributeError` if absent. -/
def Attrs.del {V : Type _} (o : Attrs V) (n : String) : Py (Attrs V) :=
  if n ∈ o.map (·.1) then .ok (o.filter fun e => e.1 ≠ n) else .error .attributeError

/-- `setattr`. -/
def Attrs.set {V : Type _} (o : Attrs V) (n : String) (v : V) : Attrs V := (n, v) :: o.filter fun e => e.1 ≠ n

/-- MatchUp.py L411-416 `close`: in Python 2 `keys()` is a list taken before the loop; every attribute is deleted and `closed` is set
(`yes` is `True`). -/
def Attrs.close {V : Type _} (yes : V) (o : Attrs V) : Py (Attrs V) := do
  let o' ← (o.map (·.1)).foldlM (fun a n => a.del n) o
  pure (o'.set "closed" yes)

/-- MatchUp.py L315-319 `__enter__`, `__exit__`: the body of a `with` statement on the object; it is closed also when the body raises, and
the exception goes on (`__exit__` returns `None`). The result is that of the body and the object after the statement. -/
def Attrs.withObject {V β : Type _} (yes : V) (o : Attrs V) (body : Attrs V → Py β × Attrs V) : Py β × Attrs V :=
  let r := body o
  match r.2.close yes with
  | .ok o' => (r.1, o')
  | .error e => (.error e, r.2)

end Verif
