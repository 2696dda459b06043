import Verif.Lemmas.GNReady
/-
The products as one matrix; exchange of sums.
-/
set_option autoImplicit false
namespace Verif
open Finset (sum_congr)
variable {α δ : Type} [Field α]

/-- The matrix of the product. -/
def GN.prodM (g : GN α δ) (N_var nl : Nat) (js : List (SeriesJ α)) (r d : Nat) : α :=
  ∑ c ∈ Finset.range (N_var + nl), jacM N_var js r c * g.preM N_var c d

theorem prod_fwd_mat {g : GN α δ} {ctx : ProdCtx} {labels : List String} {N_mu : Nat} {js : List (SeriesJ α)} (h : g.Shaped ctx labels N_mu js)
    {x : List α} (hx : x.length = ctx.N_var + labels.length) :
    g.getJPx x = .ok (vector (ctx.N_var + N_mu) fun r => ∑ d ∈ Finset.range (ctx.N_var + labels.length), g.prodM ctx.N_var labels.length js r d * ent x d) := by
  unfold GN.getJPx
  rw [prod_fwd h hx]
  congr 1
  apply vector_congr
  intro r _
  simp only [GN.prodM, Finset.mul_sum, Finset.sum_mul]
  rw [Finset.sum_comm]
  refine sum_congr rfl fun d _ => sum_congr rfl fun c _ => ?_
  ring

theorem prod_bwd_mat {g : GN α δ} {ctx : ProdCtx} {labels : List String} {N_mu : Nat} {js : List (SeriesJ α)} (h : g.Shaped ctx labels N_mu js)
    {y : List α} (hy : y.length = ctx.N_var + N_mu) :
    g.getJPTx y = .ok (vector (ctx.N_var + labels.length) fun d => ∑ r ∈ Finset.range (ctx.N_var + N_mu), g.prodM ctx.N_var labels.length js r d * ent y r) := by
  unfold GN.getJPTx
  rw [prod_bwd h hy]
  congr 1
  apply vector_congr
  intro r _
  simp only [GN.prodM, Finset.mul_sum, Finset.sum_mul]
  rw [Finset.sum_comm]
  refine sum_congr rfl fun d _ => sum_congr rfl fun c _ => ?_
  ring

/-- Adjointness of a matrix and its transpose. -/
theorem adjoint_sum {n m : Nat} (A : Nat → Nat → α) (x y : Nat → α) :
    ∑ r ∈ Finset.range m, (∑ d ∈ Finset.range n, A r d * x d) * y r = ∑ d ∈ Finset.range n, x d * ∑ r ∈ Finset.range m, A r d * y r := by
  simp only [Finset.sum_mul, Finset.mul_sum]
  rw [Finset.sum_comm]
  refine sum_congr rfl fun d _ => sum_congr rfl fun r _ => ?_
  ring

theorem dot_vector {n : Nat} {a b : List α} (ha : a.length = n) (hb : b.length = n) :
    (List.zipWith (· * ·) a b).sum = ∑ i ∈ Finset.range n, ent a i * ent b i := by
  have := npDot_vector ha hb
  unfold npDot at this
  rw [if_pos (by omega)] at this
  simpa using this

theorem calcHx_mat {g : GN α δ} {ctx : ProdCtx} {labels : List String} {N_mu : Nat} {js : List (SeriesJ α)} (h : g.Shaped ctx labels N_mu js)
    {x : List α} (hx : x.length = ctx.N_var + labels.length) :
    g.calcHx x = .ok (vector (ctx.N_var + labels.length) fun d => ∑ r ∈ Finset.range (ctx.N_var + N_mu), g.prodM ctx.N_var labels.length js r d *
      ∑ e ∈ Finset.range (ctx.N_var + labels.length), g.prodM ctx.N_var labels.length js r e * ent x e) := by
  have h1 := prod_fwd_mat h hx
  unfold GN.getJPx at h1
  unfold GN.calcHx
  rw [h1]
  simp only [bind, Except.bind]
  have h2 := prod_bwd_mat h (y := vector (ctx.N_var + N_mu) fun r => ∑ d ∈ Finset.range (ctx.N_var + labels.length), g.prodM ctx.N_var labels.length js r d * ent x d)
    (by simp)
  unfold GN.getJPTx at h2
  rw [h2]
  congr 1
  apply vector_congr
  intro d _
  refine sum_congr rfl fun r hr => ?_
  rw [ent_vector (Finset.mem_range.1 hr)]

/-- The shape conditions do not involve the preconditioner. -/
theorem Shaped.withS {g : GN α δ} {ctx : ProdCtx} {labels : List String} {N_mu : Nat} {js : List (SeriesJ α)} (h : g.Shaped ctx labels N_mu js)
    {S : List (List α)} (h1 : S.length = labels.length) (h2 : ∀ r ∈ S, r.length = labels.length) : ({ g with S := S } : GN α δ).Shaped ctx labels N_mu js :=
  ⟨h.ctx_eq, h.mu_eq, h.labels_eq, h.a_len, h1, h2, h.sys, h.len, h.series⟩

/-- The identity preconditioner, as built by `GNAlgo` without a covariance matrix. -/
def identS (n : Nat) : List (List α) := (List.range n).map fun i => (List.range n).map fun j => if i = j then 1 else 0

theorem identS_shape (n : Nat) : (identS n : List (List α)).length = n ∧ ∀ r ∈ (identS n : List (List α)), r.length = n := by
  refine ⟨by simp [identS], ?_⟩
  intro r hr
  obtain ⟨i, _, rfl⟩ := List.mem_map.1 hr
  simp

theorem prodM_ident {g : GN α δ} {N_var nl : Nat} {js : List (SeriesJ α)} {r d : Nat} (hd : d < N_var + nl) :
    ({ g with S := identS nl } : GN α δ).prodM N_var nl js r d = jacM N_var js r d := by
  unfold GN.prodM
  have : ∀ c ∈ Finset.range (N_var + nl), jacM N_var js r c * ({ g with S := identS nl } : GN α δ).preM N_var c d = if c = d then jacM N_var js r c else 0 := by
    intro c hc
    have hc' := Finset.mem_range.1 hc
    have hp : ({ g with S := identS nl } : GN α δ).preM N_var c d = if c = d then (1 : α) else 0 := by
      unfold GN.preM
      by_cases h1 : c < N_var
      · rw [if_pos h1]
      · rw [if_neg h1]
        by_cases h2 : N_var ≤ d
        · rw [if_pos h2]
          have hg : (identS nl : List (List α)).getD (c - N_var) [] = (List.range nl).map fun j => if c - N_var = j then 1 else 0 := by
            have : c - N_var < nl := by omega
            simp [identS, List.getD, this]
          show ent ((identS nl : List (List α)).getD (c - N_var) []) (d - N_var) = _
          rw [hg]
          have hdl : d - N_var < nl := by omega
          simp only [ent, List.getD, List.getElem?_map, List.getElem?_range hdl, Option.map_some, Option.getD_some]
          by_cases hcd : c = d
          · rw [if_pos hcd, if_pos (by omega)]
          · rw [if_neg hcd, if_neg (by omega)]
        · rw [if_neg h2, if_neg (by omega)]
    rw [hp]
    split <;> simp
  rw [sum_congr rfl this, Finset.sum_ite_eq' _ d fun c => jacM N_var js r c]
  simp [hd]

end Verif
