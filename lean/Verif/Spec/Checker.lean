import Verif.Model.Checker
import Verif.Spec.Solver
/-
What a sound match-up file is: positive uncertainties where they are needed and matrices that exist. Stated on the file as the reader sees it.
-/
set_option autoImplicit false
namespace Verif
variable {α : Type}

/-- W matrix number `w` and u vector number `u` of a file (counted from 1) exist and fit: the W matrix has stored elements, a row-pointer list for `M` rows,
and as many columns as the vector has elements; all the elements of the vector are positive. -/
structure Dataset.SoundMatrices [Zero α] [LT α] (d : Dataset α) (w u : Nat) : Prop where
  w_range : 1 ≤ w ∧ w ≤ d.wNnz.length
  u_range : 1 ≤ u ∧ u ≤ d.uCount.length
  rows : ∃ row, d.wRow[w - 1]? = some row ∧ row.length = d.M + 1
  stored : 0 < d.wNnz.getD (w - 1) 0 ∧ (d.wNnz.take w).sum ≤ d.wCol.length ∧ d.wVal.length = d.wCol.length
  vector : ∃ U, openU d u = .ok U ∧ (∀ x ∈ U, 0 < x) ∧
    (∀ p c, (d.wNnz.take (w - 1)).sum ≤ p → p < (d.wNnz.take w).sum → d.wCol[p]? = some c → c < U.length) ∧
    (∃ p c, (d.wNnz.take (w - 1)).sum ≤ p ∧ p < (d.wNnz.take w).sum ∧ d.wCol[p]? = some c ∧ c + 1 = U.length)

/-- Column `c` of a side: a type from 1 to 4, with the data the type calls for. -/
def Dataset.SoundColumn [Zero α] [LT α] (d : Dataset α) (s : Side α) (c : Nat) : Prop :=
  1 ≤ d.M ∧
  ((s.utype c = 1 ∧ ∀ r, r < d.M → 0 < s.Ur r c ∧ s.Us r c = 0) ∨
   (s.utype c = 2 ∧ ∀ r, r < d.M → 0 < s.Ur r c ∧ 0 < s.Us r c) ∨
   (s.utype c = 3 ∧ d.hasUse = true ∧ (∀ r, r < d.M → s.Us r c = 0) ∧ d.SoundMatrices (s.wUse c) (s.uUse c)) ∨
   (s.utype c = 4 ∧ d.hasUse = true ∧ (∀ r, r < d.M → 0 < s.Us r c) ∧ d.SoundMatrices (s.wUse c) (s.uUse c)))

/-- What acceptance by the checker means to the solver. -/
structure Dataset.Sound [Field α] [LT α] [LE α] (d : Dataset α) : Prop where
  sensors : d.s1.name ≠ d.s2.name
  K : ∀ r, r < d.M → 0 ≤ d.Kr r ∧ 0 ≤ d.Ks r ∧ 0 < d.Ks r ^ 2 + d.Kr r ^ 2
  columns : ∀ s, d.HasSide s → ∀ c, c < s.m → d.SoundColumn s c

/-- What the checker does not look at: the row pointers of the W matrices in use start at 0 and stay within the stored elements, and a file with a type 4
column has at least two match-ups. -/
structure Dataset.Unchecked (d : Dataset α) : Prop where
  pointers : ∀ s, d.HasSide s → ∀ c, c < s.m → s.utype c = 3 ∨ s.utype c = 4 → ∃ row, d.wRow[s.wUse c - 1]? = some row ∧ row[0]? = some 0 ∧
    ∃ last, row.getLast? = some last ∧ last ≤ d.wNnz.getD (s.wUse c - 1) 0
  two : ∀ s, d.HasSide s → ∀ c, c < s.m → s.utype c = 4 → 2 ≤ d.M

/-- The track-index variables and the additional variables of a set of files have one element per match-up wherever they are present. -/
def OptionalSized (ds : List (Dataset α)) : Prop :=
  ∀ d ∈ ds, ∀ e ∈ ds, ∀ (name : String) (v : NcVar α), d.var? name = some v →
    name ∈ e.additionalNames ∨ name ∈ ["across_track_index1", "across_track_index2", "along_track_index1", "along_track_index2"] → v.data.length = d.M

/-- The declared uncertainty of column `c` can be read. -/
def Dataset.ReadableColumn (d : Dataset α) (s : Side α) (c : Nat) : Prop :=
  s.utype c = 1 ∨ s.utype c = 2 ∨
  ((s.utype c = 3 ∨ (s.utype c = 4 ∧ 2 ≤ d.M)) ∧ d.hasUse = true ∧ s.wUse c ≠ 0 ∧ s.uUse c ≠ 0 ∧ (∃ W, openW d (s.wUse c) = .ok W) ∧
    ∃ U, openU d (s.uUse c) = .ok U)

end Verif
