import Verif.Model.Reader
import Batteries.Data.List.Perm
/-
What it means for the tables and arrays of a match-up object to fit together. Used as hypothesis of the processing properties; every
opened match-up satisfies it (`opened_wellLaid`, Lemmas/Layout.lean).
-/
set_option autoImplicit false
namespace Verif
variable {α δ : Type}

/-- The index tables: block boundaries and series boundaries are running totals; every block belongs to a series numbered from 1 and is
as long as that series; every series has a block. -/
structure Idx.WF (x : Idx) : Prop where
  bounds : x.idx = prefixSums x.N_var
  series : x.cNm = prefixSums x.Nm
  len : x.N_var.length = x.n_mu.length
  block : ∀ (b n : Nat), x.n_mu[b]? = some n → 1 ≤ n ∧ ∃ M, x.Nm[n - 1]? = some M ∧ x.N_var[b]? = some M
  all : ∀ n, 1 ≤ n → n ≤ x.Nm.length → n ∈ x.n_mu

/-- A match-up object whose arrays have the lengths its tables say. -/
structure MatchUp.WF (mu : MatchUp α δ) : Prop where
  idx : mu.idx.WF
  values : mu.values.length = mu.idx.N_var.sum
  unc : mu.unc.length = mu.idx.n_mu.length
  ks : mu.ks.length = mu.idx.Nm.sum
  unck : mu.unck.map List.length = mu.idx.Nm

/-- Column `c` is stored in row `i` of the CSR matrix. -/
def CSR.Stored (w : CSR α) (i c : Nat) : Prop :=
  ∃ p a b, w.indptr[i]? = some a ∧ w.indptr[i + 1]? = some b ∧ a ≤ p ∧ p < b ∧ w.indices[p]? = some c

/-- `w` is the W matrix of some block of series `n`. -/
def MatchUp.SeriesW (mu : MatchUp α δ) (n : Nat) (w : CSR α) : Prop :=
  ∃ (b w_i u_i : Nat) (ub : UncBlock α), mu.idx.n_mu[b]? = some n ∧ mu.unc[b]? = some ub ∧
    (ub.unc = .structured w_i u_i ∨ ∃ uS, ub.unc = .structuredSystematic w_i u_i uS) ∧ mu.w_matrices[w_i]? = some (some w)

/-- The contract of `random.sample`: `k` elements at distinct positions of the population, in any order. -/
def SampleOk (rnd : List Nat → Nat → List Nat) : Prop :=
  ∀ p k, k ≤ p.length → (rnd p k).length = k ∧ (rnd p k).Subperm p
end Verif
