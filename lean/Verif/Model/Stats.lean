import Verif.Model.Simulate
import Mathlib.Order.Defs.LinearOrder
/-
Model of `harmonisation_eiv/harmonisation/core/utils/stats.py`: the averages shown in the plots. `none` is `nan`. Numbers are those of a field.
-/
set_option autoImplicit false
namespace Verif

/-- `numpy.average(vals)`: `nan` when there are none (L41-44, L70-75). -/
def pyAverage {α : Type} [Field α] (l : List α) : Option α := if l = [] then none else some (l.sum / (l.length : α))

/-- `numpy.std(vals)`. -/
def pyStd {α : Type} [Field α] (sqrt : α → α) (l : List α) : Option α :=
  if l = [] then none else some (sqrt ((l.map fun x => (x - l.sum / (l.length : α)) ^ 2).sum / (l.length : α)))

/-- The three arrays returned by `bin` (L81). -/
structure Binned (α : Type) where
  average : List (Option α)
  std : List (Option α)
  centre : List α
  deriving DecidableEq

/-- L60 `bin_ranges`. -/
def binEdges {α : Type} [Field α] (lo hi : α) (n : Nat) : List α := (List.range (n + 1)).map fun (i : Nat) => lo + (i : α) * (hi - lo) / (n : α)

/-- `numpy.where(cond)`: the positions at which the condition holds. -/
def whereIdx {β : Type} (l : List β) (p : β → Bool) : List Nat := (l.zipIdx.filter fun xi => p xi.1).map (·.2)

/-- L65-66: the values of the points in one bin. -/
def binVals {α : Type} [Field α] [LinearOrder α] (Y X : List α) (a b : α) : Py (List α) :=
  (whereIdx X fun x => decide (a ≤ x) && decide (x < b)).mapM (pyGet Y)

/-- L56-57: the range. -/
def binRange {α : Type} [Field α] [LinearOrder α] (X : List α) (range : Option (α × α)) : Py (α × α) :=
  match range with
  | some r => .ok r
  | none => do
    let lo ← pyMinOf X
    let hi ← pyMaxOf X
    pure (lo, hi)

/-- L53-81 `bin`. -/
def bin {α : Type} [Field α] [LinearOrder α] (sqrt : α → α) (Y X : List α) (n : Nat) (range : Option (α × α)) : Py (Binned α) := do
  let r ← binRange X range
  let edges := binEdges r.1 r.2 n
  let vals ← (edges.zip edges.tail).mapM fun ab => binVals Y X ab.1 ab.2
  pure { average := vals.map pyAverage, std := vals.map (pyStd sqrt), centre := (edges.zip edges.tail).map fun ab => (ab.2 + ab.1) / 2 }

/-- A `datetime.datetime`: year, month (from 1), day (from 1), hour, microseconds within the hour. The upper limit of the year (9999) is not modelled. -/
structure DateTime where
  year : Nat
  month : Nat
  day : Nat
  hour : Nat
  micro : Nat
  deriving DecidableEq, Repr

/-- Comparison of dates: field by field. -/
def DateTime.lt (a b : DateTime) : Bool :=
  decide (a.year < b.year ∨ a.year = b.year ∧ (a.month < b.month ∨ a.month = b.month ∧ (a.day < b.day ∨ a.day = b.day ∧
    (a.hour < b.hour ∨ a.hour = b.hour ∧ a.micro < b.micro))))

/-- The Gregorian calendar. -/
def isLeap (y : Nat) : Bool := (y % 4 == 0 && y % 100 != 0) || y % 400 == 0
def daysInMonth (y m : Nat) : Nat :=
  if m = 2 then (if isLeap y then 29 else 28) else if m = 4 ∨ m = 6 ∨ m = 9 ∨ m = 11 then 30 else 31

/-- The argument `time_period`. -/
inductive Period where
  | hour | day | month | year
  deriving DecidableEq, Repr

/-- L25-35: the beginning of the period (`date_figs` leading fields; the others are those of 1 January, 0:00). -/
def DateTime.floor (p : Period) (t : DateTime) : DateTime :=
  match p with
  | .hour => { t with micro := 0 }
  | .day => { t with hour := 0, micro := 0 }
  | .month => { t with day := 1, hour := 0, micro := 0 }
  | .year => { t with month := 1, day := 1, hour := 0, micro := 0 }

/-- One day later. -/
def DateTime.nextDay (t : DateTime) : DateTime :=
  if t.day < daysInMonth t.year t.month then { t with day := t.day + 1 }
  else if t.month < 12 then { t with month := t.month + 1, day := 1 }
  else { t with year := t.year + 1, month := 1, day := 1 }

/-- `t + time_delta` (L9-20, L38), for the beginning of a period. -/
def DateTime.next (p : Period) (t : DateTime) : DateTime :=
  match p with
  | .hour => if t.hour < 23 then { t with hour := t.hour + 1 } else { t.nextDay with hour := 0 }
  | .day => t.nextDay
  | .month => if t.month < 12 then { t with month := t.month + 1 } else { t with year := t.year + 1, month := 1 }
  | .year => { t with year := t.year + 1 }

/-- `times.min()`, `times.max()`: `ValueError` when empty. -/
def timesMin (times : List DateTime) : Py DateTime :=
  match times with
  | [] => .error .valueError
  | t :: ts => .ok (ts.foldl (fun a b => if b.lt a then b else a) t)
def timesMax (times : List DateTime) : Py DateTime :=
  match times with
  | [] => .error .valueError
  | t :: ts => .ok (ts.foldl (fun a b => if a.lt b then b else a) t)

/-- L39-40: the data of one period, with strict comparisons at both ends. -/
def periodVals {α : Type} (data : List α) (times : List DateTime) (a b : DateTime) : Py (List α) :=
  (whereIdx times fun t => a.lt t && t.lt b).mapM (pyGet data)

/-- L37-48, the loop; `fuel` bounds the number of turns (`none` when it is not enough). -/
def periodLoop {α : Type} [Field α] (p : Period) (data : List α) (times : List DateTime) (last : DateTime) :
    Nat → DateTime → List (Option α × DateTime) → Py (Option (List (Option α × DateTime)))
  | 0, _, _ => .ok none
  | fuel + 1, cur, acc =>
    if last.lt cur then .ok (some acc)
    else do
      let vals ← periodVals data times cur (cur.next p)
      periodLoop p data times last fuel (cur.next p) (acc ++ [(pyAverage vals, cur)])

/-- L6-50 `time_average`: the averages with the beginnings of the periods. -/
def timeAverage {α : Type} [Field α] (p : Period) (data : List α) (times : List DateTime) (fuel : Nat) : Py (Option (List (Option α × DateTime))) := do
  let lo ← timesMin times
  let hi ← timesMax times
  periodLoop p data times (hi.floor p) fuel (lo.floor p) []

end Verif
