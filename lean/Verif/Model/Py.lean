/-
Python / numpy primitives used by the modelled code.  Nothing here models a particular file of /repo; each
definition states the Python or numpy construct it stands for.
-/
set_option autoImplicit false
namespace Verif

/-- The Python exception classes the modelled code can raise. `nonFinite` is not an exception: it stands for a numpy operation whose result is
`nan` or `inf` (Python goes on with a warning), after which the model says nothing about the numbers. -/
inductive PyErr where
  | keyError | valueError | indexError | typeError | attributeError | unboundLocalError | nameError | ioError | zeroDivisionError | nonFinite | runtimeError
  deriving DecidableEq, Repr

/-- A Python computation: a value or a raised exception. -/
abbrev Py (α : Type _) := Except PyErr α

/-- `l.index(x)`: position of the first occurrence, `ValueError` if there is none. -/
def pyIndex {α : Type _} [DecidableEq α] (l : List α) (x : α) : Py Nat :=
  if x ∈ l then .ok (l.idxOf x) else .error .valueError

/-- `l[i]` for a non-negative index, `IndexError` beyond the end. -/
def pyGet {α : Type _} (l : List α) (i : Nat) : Py α :=
  match l[i]? with
  | some x => .ok x
  | none => .error .indexError

/-- `l[a:b]` for non-negative bounds. -/
def slice {α : Type _} (l : List α) (a b : Nat) : List α := (l.drop a).take (b - a)

/-- numpy `l[a:b] = v` for non-negative bounds: lengths must agree, or `v` must have length one (broadcast);
anything else is a `ValueError`.  The result is the whole new array. -/
def setSlice {α : Type _} (l : List α) (a b : Nat) (v : List α) : Py (List α) :=
  let n := (slice l a b).length
  if v.length = n then .ok (l.take a ++ v ++ l.drop (a + n))
  else match v with
    | [x] => .ok (l.take a ++ List.replicate n x ++ l.drop (a + n))
    | _ => .error .valueError

/-- The running-total loop `t = 0; out = [0]; for x in l: t += x; out.append(t)`. -/
def prefixSums (l : List Nat) : List Nat :=
  (l.foldl (fun (st : Nat × List Nat) x => (st.1 + x, st.2 ++ [st.1 + x])) (0, [0])).2

/-- `max(l)` for a list of naturals, `ValueError` when empty. -/
def pyMax (l : List Nat) : Py Nat :=
  match l with
  | [] => .error .valueError
  | x :: xs => .ok (xs.foldl max x)

/-- `array[:, i]` of a two-dimensional netCDF variable with `n` rows, given by its element function. -/
def column {α : Type _} (n : Nat) (f : Nat → Nat → α) (i : Nat) : List α := (List.range n).map (fun r => f r i)

/-- `array[:]` of a one-dimensional netCDF variable with `n` entries, given by its element function. -/
def vector {α : Type _} (n : Nat) (f : Nat → α) : List α := (List.range n).map f

end Verif
