import Verif.Lemmas.GNVec
/-
What a rolling-average W matrix is: match-up `i` is an average, with the given weights, of the scan lines `pos i`, `pos i + 1`, ...; the columns of the matrix
stand for the scan lines used by some match-up.
-/
set_option autoImplicit false
namespace Verif
variable {α : Type}

/-- The weight of scan line `q` in an average starting at scan line `p`. -/
def weightAt [Zero α] (wts : List α) (p q : Nat) : α := if p ≤ q then wts.getD (q - p) 0 else 0

/-- `w` averages, for the match-ups starting at scan lines `pos`, with weights `wts`; `scan` lists the scan line of each column. -/
structure CSR.RollingAverage [Field α] (w : CSR α) (pos : List Nat) (wts : List α) (scan : List Nat) : Prop where
  /-- one row per match-up -/
  rows : w.nrows = pos.length
  /-- one column per scan line, each once and in increasing order -/
  cols : scan.length = w.ncols
  increasing : scan.Pairwise (· < ·)
  /-- the matrix elements are the weights -/
  weight : ∀ (i p c q : Nat), pos[i]? = some p → scan[c]? = some q → w.dense i c = weightAt wts p q
  /-- no scan line with non-zero weight is missing -/
  complete : ∀ (p q : Nat), p ∈ pos → weightAt wts p q ≠ 0 → q ∈ scan
  /-- no column is zero -/
  used : ∀ c, c < w.ncols → ∃ i, i < w.nrows ∧ w.dense i c ≠ 0

/-- The scan line numbers `pos` of match-ups at `times`: whole numbers, smallest zero, differing from the first by the elapsed time in scan lines of length `s`, to
the nearest whole number. -/
structure ScanLines [Field α] [LinearOrder α] (s : α) (times : List α) (pos : List Nat) : Prop where
  length : pos.length = times.length
  zero : 0 ∈ pos
  near : ∀ (i p p0 : Nat) (t t0 : α), times[i]? = some t → pos[i]? = some p → times[0]? = some t0 → pos[0]? = some p0 →
    |((p : α) - p0) - (t - t0) / s| ≤ 1 / 2

end Verif
