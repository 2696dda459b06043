import Verif.Model.Transform
import Verif.Spec.Layout
/-
Conditions on W matrices under which the transformation to independent variables can be undone.
-/
set_option autoImplicit false
namespace Verif
variable {α : Type}

/-- A CSR matrix with one row pointer more than rows and all stored columns inside the shape. -/
structure CSR.Shape (w : CSR α) : Prop where
  ptr : w.indptr.length = w.nrows + 1
  data : w.data.length = w.indices.length
  cols : ∀ c ∈ w.indices, c < w.ncols

/-- The entries of row `i` whose column occurs in no earlier row. -/
def CSR.freshEntries (w : CSR α) (i : Nat) : List (Nat × α) :=
  (w.rowEntries i).filter fun e => !((List.range i).any fun j => (w.rowEntries j).any fun e' => e'.1 == e.1)

/-- Every row either uses no column of an earlier row and has weights summing to one, or uses some columns of earlier rows and some new ones whose
weights do not sum to zero. (A rolling average, each row reaching at least one input further than all before it, is of this kind.) -/
def CSR.Sequential [Field α] (w : CSR α) : Prop :=
  ∀ i, i < w.nrows →
    (w.freshEntries i = w.rowEntries i ∧ ((w.rowEntries i).map (·.2)).sum = 1) ∨
    (w.freshEntries i ≠ w.rowEntries i ∧ ((w.freshEntries i).map (·.2)).sum ≠ 0)

/-- The data of block number `b` of a match-up object. -/
def MatchUp.BlockAt {δ : Type} (mu : MatchUp α δ) (b : Nat) (v : List α) : Prop :=
  ∃ start size : Nat, mu.idx.idx[b]? = some start ∧ mu.idx.N_var[b]? = some size ∧ start + size ≤ mu.values.length ∧
    v = (mu.values.drop start).take size

/-- A block of `n` match-ups with independent random uncertainties, all non-zero, with or without a (numbered) systematic part. -/
def UncBlock.Random [Field α] (u : UncBlock α) (n : Nat) : Prop :=
  ∃ uR, uR.length = n ∧ (∀ a ∈ uR, a ≠ 0) ∧ (u.unc = .independent uR ∨ ∃ uS k, u.unc = .systematic uR uS ∧ uS.length = n ∧ u.uS_i = some k ∧ 1 ≤ k)

/-- A block of `n` match-ups averaged by a W matrix that can be solved sequentially, with non-zero uncertainties of the averaged values, with or
without a (numbered) systematic part. -/
def UncBlock.Averaged {δ : Type} [Field α] (mu : MatchUp α δ) (u : UncBlock α) (n : Nat) : Prop :=
  ∃ (w_i u_i : Nat) (w : CSR α) (uv : List α), mu.w_matrices[w_i]? = some (some w) ∧ mu.u_matrices[u_i]? = some (some uv) ∧
    w.Shape ∧ w.Sequential ∧ w.nrows = n ∧ uv.length = w.ncols ∧ (∀ a ∈ uv, a ≠ 0) ∧
    (u.unc = .structured w_i u_i ∨ ∃ uS k, u.unc = .structuredSystematic w_i u_i uS ∧ u.uS_i = some k ∧ 1 ≤ k)

/-- Every block is of one of the two kinds above, and the uncertainties of K are non-zero. -/
structure MatchUp.Normalisable {δ : Type} [Field α] (mu : MatchUp α δ) : Prop where
  wf : mu.WF
  pairs : mu.idx.Im.length = mu.idx.Nm.length
  orig : mu.original_idx = mu.idx
  blocks : ∀ (b n : Nat) (u : UncBlock α), mu.unc[b]? = some u → mu.idx.N_var[b]? = some n → u.Random n ∨ u.Averaged mu n
  unck : ∀ u ∈ mu.unck, ∀ a ∈ u, a ≠ 0

/-- A block of `n` match-ups averaged by the W matrix `w`, with non-zero uncertainties of the averaged values, with or without a (numbered)
systematic part; nothing is asked of the weights. -/
def UncBlock.AveragedBy {δ : Type} [Field α] (mu : MatchUp α δ) (u : UncBlock α) (n : Nat) (w : CSR α) : Prop :=
  ∃ (w_i u_i : Nat) (uv : List α), mu.w_matrices[w_i]? = some (some w) ∧ mu.u_matrices[u_i]? = some (some uv) ∧
    w.Shape ∧ w.nrows = n ∧ uv.length = w.ncols ∧ (∀ a ∈ uv, a ≠ 0) ∧
    (u.unc = .structured w_i u_i ∨ ∃ uS k, u.unc = .structuredSystematic w_i u_i uS ∧ u.uS_i = some k ∧ 1 ≤ k)

/-- As `Normalisable`, but with any W matrices. -/
structure MatchUp.Transformable {δ : Type} [Field α] (mu : MatchUp α δ) : Prop where
  wf : mu.WF
  pairs : mu.idx.Im.length = mu.idx.Nm.length
  orig : mu.original_idx = mu.idx
  blocks : ∀ (b n : Nat) (u : UncBlock α), mu.unc[b]? = some u → mu.idx.N_var[b]? = some n → u.Random n ∨ ∃ w, u.AveragedBy mu n w
  unck : ∀ u ∈ mu.unck, ∀ a ∈ u, a ≠ 0

end Verif
