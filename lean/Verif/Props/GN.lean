import Verif.Lemmas.GNAdj
import Verif.Lemmas.GNOpened
import Verif.Lemmas.GNSolve
import Mathlib.Algebra.Order.Field.Basic
import Mathlib.Algebra.Order.BigOperators.Group.List
import Mathlib.Tactic.FieldSimp
import Mathlib.Tactic.Positivity
/-
Properties C28, C29, C31: products with the Jacobian, the normal-equation operator, the parameter covariance.
-/
set_option autoImplicit false
namespace Verif
open Finset (sum_congr)
variable {α δ : Type} [Field α]

theorem GN.Setup.sizes {g : GN α δ} {ms : Evaluable α δ} {labels clabels : List String} {m n : Nat} {N : List Nat} (h : g.Setup ms labels clabels m N n) :
    g.hd.mu.values.length = N.sum + n ∧ g.hd.a.length = labels.length ∧ g.hd.mu.ks.length = ms.mu.idx.Nm.sum := by
  refine ⟨h.facts.vlen, h.a_len, ?_⟩
  have hk := h.facts.ks
  rw [scaleKs_eq h.ready.wf.idx.series h.ready.pairs h.ready.wf.unck h.ready.wf.ks] at hk
  have := (Except.ok.inj hk).symm
  rw [this, List.length_zipWith, h.ready.wf.ks, List.length_flatten, h.ready.wf.unck]
  simp

/-- **C28.** On every solver-ready match-up, at every estimate and with every preconditioner, the Jacobian product of any vector `x` and the
transposed product of any vector `y` (of the right lengths) are defined, and `<J P x, y> = <x, (J P)ᵀ y>`. -/
theorem C28_adjoint {ms : Evaluable α δ} {labels clabels : List String} {m : Nat} (h : ms.SolverReady labels clabels m) {g : GN α δ} (hg : g.Solves ms)
    (x y : List α) (hx : x.length = g.hd.mu.values.length + g.hd.a.length) (hy : y.length = g.hd.mu.values.length + g.hd.mu.ks.length) :
    ∃ u v, g.getJPx x = .ok u ∧ g.getJPTx y = .ok v ∧ u.length = y.length ∧ v.length = x.length ∧ dotp u y = dotp x v := by
  obtain ⟨N, n, hs⟩ := hg.setup h
  obtain ⟨js, hj⟩ := hs.shaped
  obtain ⟨s1, s2, s3⟩ := hs.sizes
  rw [s1, s2] at hx
  rw [s1, s3] at hy
  refine ⟨_, _, prod_fwd_mat hj hx, prod_bwd_mat hj hy, by simp [hy], by simp [hx], ?_⟩
  unfold dotp
  rw [dot_vector (vector_length _ _) hy, dot_vector hx (vector_length _ _)]
  have e1 : ∀ r ∈ Finset.range (N.sum + n + ms.mu.idx.Nm.sum), ent (vector (N.sum + n + ms.mu.idx.Nm.sum) fun r => ∑ d ∈ Finset.range (N.sum + n + labels.length),
      g.prodM (N.sum + n) labels.length js r d * ent x d) r * ent y r = (∑ d ∈ Finset.range (N.sum + n + labels.length),
      g.prodM (N.sum + n) labels.length js r d * ent x d) * ent y r := fun r hr => by rw [ent_vector (Finset.mem_range.1 hr)]
  have e2 : ∀ d ∈ Finset.range (N.sum + n + labels.length), ent x d * ent (vector (N.sum + n + labels.length) fun d =>
      ∑ r ∈ Finset.range (N.sum + n + ms.mu.idx.Nm.sum), g.prodM (N.sum + n) labels.length js r d * ent y r) d =
      ent x d * ∑ r ∈ Finset.range (N.sum + n + ms.mu.idx.Nm.sum), g.prodM (N.sum + n) labels.length js r d * ent y r :=
    fun d hd => by rw [ent_vector (Finset.mem_range.1 hd)]
  rw [sum_congr rfl e1, sum_congr rfl e2]
  exact adjoint_sum _ _ _

/-- **C29.** The normal-equation product of any vector is defined, is `(J P)ᵀ (J P x)`, is symmetric, and `<x, H x>` is the squared norm of `J P x`,
so never negative. -/
theorem C29_hessian [LinearOrder α] [IsStrictOrderedRing α] {ms : Evaluable α δ} {labels clabels : List String} {m : Nat}
    (h : ms.SolverReady labels clabels m) {g : GN α δ} (hg : g.Solves ms)
    (x y : List α) (hx : x.length = g.hd.mu.values.length + g.hd.a.length) (hy : y.length = g.hd.mu.values.length + g.hd.a.length) :
    ∃ hx' hy' u, g.calcHx x = .ok hx' ∧ g.calcHx y = .ok hy' ∧ g.getJPx x = .ok u ∧ g.getJPTx u = .ok hx' ∧ hx'.length = x.length ∧
      dotp y hx' = dotp x hy' ∧ dotp x hx' = dotp u u ∧ 0 ≤ dotp x hx' := by
  obtain ⟨N, n, hs⟩ := hg.setup h
  obtain ⟨js, hj⟩ := hs.shaped
  obtain ⟨s1, s2, s3⟩ := hs.sizes
  have hxl := hx; have hyl := hy
  rw [s1, s2] at hxl hyl
  have hux := prod_fwd_mat hj hxl
  have huy := prod_fwd_mat hj hyl
  obtain ⟨u, hu⟩ : ∃ u, u = vector (N.sum + n + ms.mu.idx.Nm.sum) fun r => ∑ d ∈ Finset.range (N.sum + n + labels.length),
      g.prodM (N.sum + n) labels.length js r d * ent x d := ⟨_, rfl⟩
  obtain ⟨w, hw⟩ : ∃ w, w = vector (N.sum + n + ms.mu.idx.Nm.sum) fun r => ∑ d ∈ Finset.range (N.sum + n + labels.length),
      g.prodM (N.sum + n) labels.length js r d * ent y d := ⟨_, rfl⟩
  simp only [← hu] at hux
  simp only [← hw] at huy
  have hul : u.length = g.hd.mu.values.length + g.hd.mu.ks.length := by rw [hu, s1, s3]; simp
  have hwl : w.length = g.hd.mu.values.length + g.hd.mu.ks.length := by rw [hw, s1, s3]; simp
  obtain ⟨u1, v1, a1, a2, a3, a4, a5⟩ := C28_adjoint h hg y u hy hul
  obtain ⟨u2, v2, b1, b2, b3, b4, b5⟩ := C28_adjoint h hg x u hx hul
  obtain ⟨u3, v3, c1, c2, c3, c4, c5⟩ := C28_adjoint h hg x w hx hwl
  rw [huy] at a1; cases a1
  rw [hux] at b1 c1; cases b1; cases c1
  rw [a2] at b2; cases b2
  refine ⟨v1, v3, u, ?_, ?_, hux, a2, b4, ?_, ?_, ?_⟩
  · unfold GN.calcHx; exact bind_ok.2 ⟨u, hux, a2⟩
  · unfold GN.calcHx; exact bind_ok.2 ⟨w, huy, c2⟩
  · rw [← a5, ← c5]
    unfold dotp
    rw [List.zipWith_comm_of_comm mul_comm]
  · rw [← b5]
  · rw [← b5]
    unfold dotp
    rw [List.zipWith_self]
    apply List.sum_nonneg
    intro z hz
    obtain ⟨a, _, rfl⟩ := List.mem_map.1 hz
    exact mul_self_nonneg a

/-- The unit vector `e_i` of length `n`. -/
def unitV (n i : Nat) : List α := (List.range n).map fun j => if j = i then 1 else 0

theorem unitVec_eq {n i : Nat} (h : i < n) : (unitVec n i : Py (List α)) = .ok (unitV n i) := by
  unfold unitVec unitV
  rw [if_pos h]
  congr 1
  apply List.ext_getElem
  · simp
  · intro j h1 h2
    rw [List.getElem_set]
    simp [eq_comm]

theorem ent_unitV {n i j : Nat} (h : j < n) : ent (unitV n i : List α) j = if j = i then 1 else 0 := by
  have : (unitV n i : List α) = vector n fun j => if j = i then 1 else 0 := rfl
  rw [this, ent_vector h]

theorem dot_unitV {n i : Nat} (h : i < n) (f : Nat → α) : ∑ c ∈ Finset.range n, f c * ent (unitV n i : List α) c = f i := by
  have : ∀ c ∈ Finset.range n, f c * ent (unitV n i : List α) c = if c = i then f c else 0 := by
    intro c hc
    rw [ent_unitV (Finset.mem_range.1 hc)]
    split <;> simp
  rw [sum_congr rfl this, Finset.sum_ite_eq' _ i f]
  simp [h]

/-- **C31 (symmetry).** Whatever the linear solver returns, the covariance matrix is square and symmetric. -/
theorem C31_symmetric {g : GN α δ} {minres : GN α δ → List α → Py (List α)} {V : List (List α)} (h : g.covariance minres = .ok V) :
    V.length = g.hd.a.length ∧ (∀ r ∈ V, r.length = g.hd.a.length) ∧
    ∀ i j, i < g.hd.a.length → j < g.hd.a.length → (V.getD i []).getD j 0 = (V.getD j []).getD i 0 := by
  unfold GN.covariance at h
  obtain ⟨W, _, h⟩ := bind_ok.1 h
  rw [pure_ok] at h
  subst h
  refine ⟨by simp, ?_, ?_⟩
  · intro r hr
    obtain ⟨i, _, rfl⟩ := List.mem_map.1 hr
    simp
  · intro i j hi hj
    simp only [List.getD, List.getElem?_map, List.getElem?_range hi, List.getElem?_range hj, Option.map_some, Option.getD_some]
    rw [add_comm]

/-- **C31.** Let the preconditioner be non-singular, let the linear solves be exact (`minres` returns a solution of `H z = b`), and let `cov j` be the
columns of the inverse of `JᵀJ` belonging to the parameters: vectors with `Jᵀ J (cov j) = e_j`, where `J` is the Jacobian applied without
preconditioner. Then the covariance matrix is computed, and its element `(i, j)` is element `i` (of the parameters) of `cov j`. -/
theorem C31_covariance (h2 : (2 : α) ≠ 0) {ms : Evaluable α δ} {labels clabels : List String} {m : Nat}
    (h : ms.SolverReady labels clabels m) {g : GN α δ} (hg : g.Solves ms)
    (hS : ∀ v, v.length = g.hd.a.length → matTVec g.S v = .ok (List.replicate g.hd.a.length 0) → v = List.replicate g.hd.a.length 0)
    (minres : GN α δ → List α → Py (List α))
    (hsolve : ∀ b, b.length = g.hd.mu.values.length + g.hd.a.length → ∃ z, minres g b = .ok z ∧ z.length = b.length ∧ g.calcHx z = .ok b)
    (cov : Nat → List α)
    (hcov : ∀ j, j < g.hd.a.length → (cov j).length = g.hd.mu.values.length + g.hd.a.length ∧
      ({ g with S := identS g.hd.a.length } : GN α δ).calcHx (cov j) =
        .ok (unitV (g.hd.mu.values.length + g.hd.a.length) (g.hd.mu.values.length + j))) :
    ∃ V, g.covariance minres = .ok V ∧
      ∀ i j, i < g.hd.a.length → j < g.hd.a.length → (V.getD i []).getD j 0 = (cov j).getD (g.hd.mu.values.length + i) 0 := by
  obtain ⟨N, n, hs⟩ := hg.setup h
  obtain ⟨js, hj⟩ := hs.shaped
  obtain ⟨s1, s2, s3⟩ := hs.sizes
  rw [s1, s2] at hsolve hcov
  rw [s2] at hS
  obtain ⟨i1, i2⟩ := identS_shape (α := α) labels.length
  have hji := Shaped.withS hj i1 i2
  -- abbreviations
  generalize hNv : N.sum + n = Nv at *
  generalize hnl : labels.length = nl at *
  generalize hNm : ms.mu.idx.Nm.sum = Nm at *
  -- JᵀJ as a matrix
  let Q : Nat → Nat → α := fun c d => ∑ r ∈ Finset.range (Nv + Nm), jacM Nv js r c * jacM Nv js r d
  have hQs : ∀ c d, Q c d = Q d c := fun c d => sum_congr rfl fun r _ => mul_comm _ _
  -- columns of the inverse
  have hcol : ∀ j, j < nl → ∀ c, c < Nv + nl → ∑ d ∈ Finset.range (Nv + nl), Q c d * ent (cov j) d = if c = Nv + j then 1 else 0 := by
    intro j hjlt c hc
    obtain ⟨hl, he⟩ := hcov j hjlt
    have := calcHx_mat hji (x := cov j) (by simpa [hnl] using hl)
    simp only [hnl] at this
    rw [this] at he
    have he' := congrArg (fun l => ent l c) (Except.ok.inj he)
    rw [ent_vector hc, ent_unitV hc] at he'
    rw [← he']
    simp only [Q, Finset.sum_mul]
    rw [Finset.sum_comm]
    refine sum_congr rfl fun r _ => ?_
    rw [prodM_ident hc, Finset.mul_sum]
    refine sum_congr rfl fun d hd => ?_
    rw [prodM_ident (Finset.mem_range.1 hd)]
    ring
  -- one element
  have hel : ∀ i j, i < nl → j < nl → g.covarianceIJ minres i j = .ok ((cov i).getD (Nv + j) 0) := by
    intro i j hi hjlt
    have hpd := calcPx_bwd hj (y := unitV (Nv + nl) (Nv + j)) (by simp [unitV, hnl])
    have hpc := calcPx_bwd hj (y := unitV (Nv + nl) (Nv + i)) (by simp [unitV, hnl])
    simp only [hnl] at hpd hpc
    rw [vector_congr (fun d _ => dot_unitV (show Nv + j < Nv + nl by omega) fun r => g.preM Nv r d)] at hpd
    rw [vector_congr (fun d _ => dot_unitV (show Nv + i < Nv + nl by omega) fun r => g.preM Nv r d)] at hpc
    obtain ⟨z, hz, hzl, hHz⟩ := hsolve (vector (Nv + nl) fun d => g.preM Nv (Nv + j) d) (by simp)
    rw [vector_length] at hzl
    -- w = P z
    let w : Nat → α := fun c => ∑ d ∈ Finset.range (Nv + nl), g.preM Nv c d * ent z d
    have hw : ∀ r, ∑ e ∈ Finset.range (Nv + nl), g.prodM Nv nl js r e * ent z e = ∑ c ∈ Finset.range (Nv + nl), jacM Nv js r c * w c := by
      intro r
      simp only [GN.prodM, w, Finset.sum_mul, Finset.mul_sum]
      rw [Finset.sum_comm]
      refine sum_congr rfl fun c _ => sum_congr rfl fun e _ => ?_
      ring
    -- Pᵀ (Q w) = Pᵀ e_j
    have hPQ : ∀ d, d < Nv + nl → ∑ c ∈ Finset.range (Nv + nl), g.preM Nv c d * (∑ c' ∈ Finset.range (Nv + nl), Q c c' * w c') = g.preM Nv (Nv + j) d := by
      intro d hd
      have hH := calcHx_mat hj (x := z) (by simpa [hnl] using hzl)
      simp only [hnl] at hH
      rw [hH] at hHz
      have he := congrArg (fun l => ent l d) (Except.ok.inj hHz)
      rw [ent_vector hd, ent_vector hd] at he
      rw [← he]
      have : ∀ r ∈ Finset.range (Nv + Nm), g.prodM Nv nl js r d * ∑ e ∈ Finset.range (Nv + nl), g.prodM Nv nl js r e * ent z e =
          ∑ c ∈ Finset.range (Nv + nl), g.preM Nv c d * (jacM Nv js r c * ∑ c' ∈ Finset.range (Nv + nl), jacM Nv js r c' * w c') := by
        intro r _
        rw [hw r]
        simp only [GN.prodM, Finset.sum_mul]
        refine sum_congr rfl fun c _ => ?_
        ring
      rw [sum_congr rfl this, Finset.sum_comm]
      refine sum_congr rfl fun c _ => ?_
      rw [← Finset.mul_sum]
      congr 1
      simp only [Q, Finset.sum_mul, Finset.mul_sum]
      rw [Finset.sum_comm]
      refine sum_congr rfl fun r _ => sum_congr rfl fun c' _ => ?_
      ring
    -- Q w = e_j
    let t : Nat → α := fun c => ∑ c' ∈ Finset.range (Nv + nl), Q c c' * w c'
    have hPt : ∀ d, d < Nv + nl → ∑ c ∈ Finset.range (Nv + nl), g.preM Nv c d * (t c - if c = Nv + j then 1 else 0) = 0 := by
      intro d hd
      simp only [mul_sub, Finset.sum_sub_distrib]
      have := hPQ d hd
      rw [show ∑ c ∈ Finset.range (Nv + nl), g.preM Nv c d * t c = g.preM Nv (Nv + j) d from this]
      have h3 : ∀ c ∈ Finset.range (Nv + nl), g.preM Nv c d * (if c = Nv + j then (1 : α) else 0) = if c = Nv + j then g.preM Nv c d else 0 := by
        intro c _; split <;> simp
      rw [sum_congr rfl h3, Finset.sum_ite_eq' _ (Nv + j) fun c => g.preM Nv c d]
      simp [hjlt]
    have htop : ∀ d, d < Nv → t d = 0 := by
      intro d hd
      have := hPt d (by omega)
      have h3 : ∀ c ∈ Finset.range (Nv + nl), g.preM Nv c d * (t c - if c = Nv + j then 1 else 0) = if c = d then t c else 0 := by
        intro c _
        unfold GN.preM
        by_cases hcv : c < Nv
        · rw [if_pos hcv, if_neg (show ¬ c = Nv + j by omega)]
          split <;> simp
        · rw [if_neg hcv, if_neg (by omega), if_neg (show ¬ c = d by omega), zero_mul]
      rw [sum_congr rfl h3, Finset.sum_ite_eq' _ d t] at this
      rw [if_pos (Finset.mem_range.2 (by omega))] at this
      exact this
    have hbot : ∀ p, p < nl → t (Nv + p) = if p = j then 1 else 0 := by
      let v : List α := vector nl fun p => t (Nv + p) - if p = j then 1 else 0
      have hv0 : v = List.replicate nl 0 := by
        apply hS v (by simp [v])
        rw [matTVec_eq (by rw [hj.S_len]; simp [v, hnl]), hj.S_len, hnl]
        congr 1
        have : List.replicate nl (0 : α) = vector nl fun _ => 0 := by simp [vector]
        rw [this]
        apply vector_congr
        intro d hd
        have := hPt (Nv + d) (by omega)
        rw [sum_split] at this
        have h0 : ∑ c ∈ Finset.range Nv, g.preM Nv c (Nv + d) * (t c - if c = Nv + j then 1 else 0) = 0 := by
          apply Finset.sum_eq_zero
          intro c hc
          have := Finset.mem_range.1 hc
          unfold GN.preM
          rw [if_pos this, if_neg (show ¬ c = Nv + d by omega), zero_mul]
        rw [h0, zero_add] at this
        rw [← this]
        refine sum_congr rfl fun p hp => ?_
        have hp' := Finset.mem_range.1 hp
        unfold GN.preM
        rw [if_neg (show ¬ Nv + p < Nv by omega), if_pos (Nat.le_add_right _ _), Nat.add_sub_cancel_left, Nat.add_sub_cancel_left]
        simp only [v]
        rw [ent_vector hp']
        congr 2
        by_cases hpj : p = j
        · rw [if_pos hpj, if_pos (by omega)]
        · rw [if_neg hpj, if_neg (by omega)]
      intro p hp
      have := congrArg (fun l => ent l p) hv0
      simp only [v] at this
      rw [ent_vector hp] at this
      have h0 : ent (List.replicate nl (0 : α)) p = 0 := by simp [ent, List.getD, hp]
      rw [h0] at this
      exact sub_eq_zero.1 this
    have ht : ∀ c, c < Nv + nl → t c = if c = Nv + j then 1 else 0 := by
      intro c hc
      by_cases hcv : c < Nv
      · rw [htop c hcv, if_neg (by omega)]
      · have := hbot (c - Nv) (by omega)
        rw [Nat.add_sub_cancel' (by omega)] at this
        rw [this]
        by_cases hcj : c = Nv + j
        · rw [if_pos hcj, if_pos (by omega)]
        · rw [if_neg hcj, if_neg (by omega)]
    -- w_i = (cov i)_j
    have hwi : w (Nv + i) = ent (cov i) (Nv + j) := by
      have e1 : ∑ c ∈ Finset.range (Nv + nl), (∑ d ∈ Finset.range (Nv + nl), Q c d * ent (cov i) d) * w c = w (Nv + i) := by
        have : ∀ c ∈ Finset.range (Nv + nl), (∑ d ∈ Finset.range (Nv + nl), Q c d * ent (cov i) d) * w c = if c = Nv + i then w c else 0 := by
          intro c hc
          rw [hcol i hi c (Finset.mem_range.1 hc)]
          split <;> simp
        rw [sum_congr rfl this, Finset.sum_ite_eq' _ (Nv + i) w]
        simp [hi]
      rw [← e1, adjoint_sum]
      have : ∀ d ∈ Finset.range (Nv + nl), ent (cov i) d * ∑ r ∈ Finset.range (Nv + nl), Q r d * w r = if d = Nv + j then ent (cov i) d else 0 := by
        intro d hd
        have hd' := Finset.mem_range.1 hd
        have : ∑ r ∈ Finset.range (Nv + nl), Q r d * w r = t d := sum_congr rfl fun r _ => by rw [hQs r d]
        rw [this, ht d hd']
        split <;> simp
      rw [sum_congr rfl this, Finset.sum_ite_eq' _ (Nv + j) fun d => ent (cov i) d]
      simp [hjlt]
    unfold GN.covarianceIJ
    rw [GN.prodCtx_var hj.ctx_eq]
    simp only [bind, Except.bind]
    rw [s2, unitVec_eq (by omega)]
    simp only []
    rw [unitVec_eq (by omega)]
    simp only [hpd, hpc, hz]
    rw [npDot_vector (vector_length _ _) hzl]
    congr 1
    have : ∀ d ∈ Finset.range (Nv + nl), ent (vector (Nv + nl) fun d => g.preM Nv (Nv + i) d) d * ent z d = g.preM Nv (Nv + i) d * ent z d :=
      fun d hd => by rw [ent_vector (Finset.mem_range.1 hd)]
    rw [sum_congr rfl this]
    exact hwi
  -- the matrix
  have hsymm : ∀ i j, i < nl → j < nl → ent (cov i) (Nv + j) = ent (cov j) (Nv + i) := by
    intro i j hi hjlt
    have e : ∀ a b, a < nl → b < nl → ∑ c ∈ Finset.range (Nv + nl), (∑ d ∈ Finset.range (Nv + nl), Q c d * ent (cov a) d) * ent (cov b) c = ent (cov b) (Nv + a) := by
      intro a b ha _
      have : ∀ c ∈ Finset.range (Nv + nl), (∑ d ∈ Finset.range (Nv + nl), Q c d * ent (cov a) d) * ent (cov b) c = if c = Nv + a then ent (cov b) c else 0 := by
        intro c hc
        rw [hcol a ha c (Finset.mem_range.1 hc)]
        split <;> simp
      rw [sum_congr rfl this, Finset.sum_ite_eq' _ (Nv + a) fun c => ent (cov b) c]
      simp [ha]
    rw [← e j i hjlt hi, ← e i j hi hjlt, adjoint_sum]
    refine sum_congr rfl fun d _ => ?_
    rw [mul_comm]
    congr 1
    exact sum_congr rfl fun r _ => by rw [hQs r d]
  have hV : g.covariance minres = .ok ((List.range nl).map fun i => (List.range nl).map fun j =>
      ((cov i).getD (Nv + j) 0 + (cov j).getD (Nv + i) 0) / 2) := by
    unfold GN.covariance
    rw [s2]
    have hrows : (List.range nl).mapM (fun i => (List.range nl).mapM fun j => g.covarianceIJ minres i j) =
        .ok ((List.range nl).map fun i => (List.range nl).map fun j => (cov i).getD (Nv + j) 0) := by
      apply mapM_ok_of
      intro i hi
      apply mapM_ok_of
      intro j hjl
      exact hel i j (List.mem_range.1 hi) (List.mem_range.1 hjl)
    simp only [hrows, bind, Except.bind, pure, Except.pure]
    congr 1
    apply List.map_congr_left
    intro i hi
    apply List.map_congr_left
    intro j hjl
    have hi' := List.mem_range.1 hi
    have hj' := List.mem_range.1 hjl
    simp [List.getD, hi', hj']
  refine ⟨_, hV, ?_⟩
  intro i j hi hjlt
  rw [s2] at hi hjlt
  rw [s1]
  have := hsymm i j hi hjlt
  unfold ent at this
  simp only [List.getD] at this ⊢
  simp only [List.getElem?_map, List.getElem?_range hi, List.getElem?_range hjlt, Option.map_some, Option.getD_some]
  rw [this]
  field_simp
  ring

/-- **C31 (the linear systems).** When no vector but zero is mapped to zero by the Jacobian product (no parameter combination is undetermined), each system
`H z = b` of the covariance computation has exactly one solution: the exact solver assumed in `C31_covariance` exists, and (with the identity
preconditioner) so do the columns `cov j` of the inverse. -/
theorem C31_solvable [LinearOrder α] [IsStrictOrderedRing α] {ms : Evaluable α δ} {labels clabels : List String} {m : Nat}
    (h : ms.SolverReady labels clabels m) {g : GN α δ} (hg : g.Solves ms)
    (hinj : ∀ x, x.length = g.hd.mu.values.length + g.hd.a.length →
      g.getJPx x = .ok (List.replicate (g.hd.mu.values.length + g.hd.mu.ks.length) 0) → x = List.replicate x.length 0)
    (b : List α) (hb : b.length = g.hd.mu.values.length + g.hd.a.length) :
    ∃! z, z.length = b.length ∧ g.calcHx z = .ok b := by
  obtain ⟨N, n, hs⟩ := hg.setup h
  obtain ⟨js, hj⟩ := hs.shaped
  obtain ⟨s1, s2, s3⟩ := hs.sizes
  rw [s1, s2] at hinj hb
  rw [s3] at hinj
  have hrep : ∀ k, List.replicate k (0 : α) = vector k fun _ => 0 := by intro k; simp [vector]
  have hzero : ∀ x : List α, x.length = N.sum + n + labels.length →
      (∀ c, c < N.sum + n + labels.length → ∑ r ∈ Finset.range (N.sum + n + ms.mu.idx.Nm.sum), g.prodM (N.sum + n) labels.length js r c *
        ∑ e ∈ Finset.range (N.sum + n + labels.length), g.prodM (N.sum + n) labels.length js r e * ent x e = 0) → x = List.replicate x.length 0 := by
    intro x hx h0
    apply hinj x hx
    rw [prod_fwd_mat hj hx, hrep]
    congr 1
    apply vector_congr
    intro r hr
    have h1 : ∑ c ∈ Finset.range (N.sum + n + labels.length), ent x c * ∑ r ∈ Finset.range (N.sum + n + ms.mu.idx.Nm.sum), g.prodM (N.sum + n) labels.length js r c *
        ∑ e ∈ Finset.range (N.sum + n + labels.length), g.prodM (N.sum + n) labels.length js r e * ent x e = 0 :=
      Finset.sum_eq_zero fun c hc => by rw [h0 c (Finset.mem_range.1 hc), mul_zero]
    rw [← adjoint_sum] at h1
    have h2 := (Finset.sum_eq_zero_iff_of_nonneg (fun r _ => mul_self_nonneg _)).1 h1 r (Finset.mem_range.2 hr)
    exact mul_self_eq_zero.1 h2
  have hH : ∀ z : List α, z.length = N.sum + n + labels.length → _ := fun z hz => calcHx_mat hj (x := z) hz
  have hlist : ∀ f : Nat → α, ∀ z, (∀ c, c < N.sum + n + labels.length → ent z c = f c) → z.length = N.sum + n + labels.length → z = vector (N.sum + n + labels.length) f := by
    intro f z hz hl
    rw [← hl]
    apply List.ext_getElem
    · simp
    · intro i h1 h2
      have := hz i (by omega)
      simp only [ent, List.getD, List.getElem?_eq_getElem h1, Option.getD_some] at this
      simp [vector, this]
  have hdist : ∀ (A B : Nat → Nat → α) (M K c : Nat) (x : Nat → α), ∑ r ∈ Finset.range M, A r c * ∑ e ∈ Finset.range K, B r e * x e =
      ∑ e ∈ Finset.range K, (∑ r ∈ Finset.range M, A r c * B r e) * x e := by
    intro A B M K c x
    simp only [Finset.mul_sum, Finset.sum_mul]
    rw [Finset.sum_comm]
    refine sum_congr rfl fun d _ => sum_congr rfl fun r _ => ?_
    ring
  obtain ⟨z, hz⟩ := square_solvable (n := N.sum + n + labels.length) (fun c d => ∑ r ∈ Finset.range (N.sum + n + ms.mu.idx.Nm.sum),
      g.prodM (N.sum + n) labels.length js r c * g.prodM (N.sum + n) labels.length js r d) (by
    intro x hx d hd
    have := hzero (vector (N.sum + n + labels.length) x) (by simp) (by
      intro c hc
      rw [← hx c hc, hdist]
      refine sum_congr rfl fun e he => ?_
      rw [ent_vector (Finset.mem_range.1 he)])
    have := congrArg (fun l => ent l d) this
    simp only [vector_length] at this
    rw [ent_vector hd, hrep, ent_vector hd] at this
    exact this) (ent b)
  refine ⟨vector (N.sum + n + labels.length) z, ⟨by simp [hb], ?_⟩, ?_⟩
  · rw [hH _ (by simp)]
    congr 1
    rw [hlist (ent b) b (fun _ _ => rfl) hb]
    apply vector_congr
    intro c hc
    rw [← hz c hc, hdist]
    refine sum_congr rfl fun e he => ?_
    rw [ent_vector (Finset.mem_range.1 he)]
  · rintro w ⟨hwl, hw⟩
    rw [hb] at hwl
    rw [hH w hwl] at hw
    have hw' := Except.ok.inj hw
    have h0 := hzero (vector (N.sum + n + labels.length) fun d => ent w d - z d) (by simp) (by
      intro c hc
      have e1 := congrArg (fun l => ent l c) hw'
      simp only at e1
      rw [ent_vector hc] at e1
      rw [hdist] at e1 ⊢
      have e2 := hz c hc
      rw [← e2] at e1
      have e3 : ∀ e ∈ Finset.range (N.sum + n + labels.length), (∑ r ∈ Finset.range (N.sum + n + ms.mu.idx.Nm.sum), g.prodM (N.sum + n) labels.length js r c *
          g.prodM (N.sum + n) labels.length js r e) * ent (vector (N.sum + n + labels.length) fun d => ent w d - z d) e =
          (∑ r ∈ Finset.range (N.sum + n + ms.mu.idx.Nm.sum), g.prodM (N.sum + n) labels.length js r c * g.prodM (N.sum + n) labels.length js r e) * ent w e -
          (∑ r ∈ Finset.range (N.sum + n + ms.mu.idx.Nm.sum), g.prodM (N.sum + n) labels.length js r c * g.prodM (N.sum + n) labels.length js r e) * z e :=
        fun e he => by rw [ent_vector (Finset.mem_range.1 he)]; ring
      rw [sum_congr rfl e3, Finset.sum_sub_distrib, e1, sub_self])
    refine hlist z w (fun c hc => ?_) hwl
    have := congrArg (fun l => ent l c) h0
    simp only [vector_length] at this
    rw [ent_vector hc, hrep, ent_vector hc] at this
    exact sub_eq_zero.1 this

/-- From the files: opening solvable files together with their sensor data, normalising, and building the solver at any estimate of the right length and
with any square preconditioner gives an object to which C28, C29 and C31 apply. -/
theorem C28_adjoint_files [DecidableEq α] {env : ReadEnv α δ} (he : EnumOk env.enumNat) {ds : List (Dataset α)}
    {sd : SensorData α (SensorModel α δ) (AdjModel α)} {m : Nat} (hf : SolvableFiles ds sd m) {ms : Evaluable α δ}
    (h : openMatchUpWith env defaultAdjustment ds sd = .ok ms) {g : GN α δ} (hg : g.Solves ms) (x y : List α)
    (hx : x.length = g.hd.mu.values.length + g.hd.a.length) (hy : y.length = g.hd.mu.values.length + g.hd.mu.ks.length) :
    ∃ u v, g.getJPx x = .ok u ∧ g.getJPTx y = .ok v ∧ u.length = y.length ∧ v.length = x.length ∧ dotp u y = dotp x v := by
  obtain ⟨labels, clabels, hr⟩ := opened_solverReady he hf h
  exact C28_adjoint hr hg x y hx hy

/-! ### A concrete case -/

namespace Fixture

/-- A reference sensor. -/
def gnRef {α δ : Type} : SensorModel α δ := fun X _ _ _ _ _ => .ok (X.headD [], none)

/-- A calibrated sensor with two covariates and two parameters: `a0 * x0 * x1 + a1`. -/
def gnCal {α δ : Type} [Field α] : SensorModel α δ := fun X a _ _ _ _ =>
  let x0 := X.getD 0 []
  let x1 := X.getD 1 []
  .ok (List.zipWith (fun u v => a.getD 0 0 * u * v + a.getD 1 0) x0 x1,
    some [x1.map (a.getD 0 0 * ·), x0.map (a.getD 0 0 * ·), List.zipWith (· * ·) x0 x1, x0.map fun _ => 1])

theorem gnRef_reference {α δ : Type} (m : Nat) (c : List α) : (gnRef : SensorModel α δ).Reference m c := fun _ _ _ _ _ _ => rfl

theorem gnCal_calibrated {α δ : Type} [Field α] (c : List α) : (gnCal : SensorModel α δ).Calibrated 2 c 2 := by
  intro X a xt al t k hX hk _
  obtain ⟨x0, x1, rfl⟩ := List.length_eq_two.1 hX
  have h0 := hk x0 (by simp)
  have h1 := hk x1 (by simp)
  refine ⟨_, _, rfl, ?_, rfl, ?_⟩
  · simp [h0, h1]
  · intro col hcol
    simp only [List.mem_cons, List.not_mem_nil, or_false] at hcol
    rcases hcol with rfl | rfl | rfl | rfl <;> simp [h0, h1]

/-- An adjustment model squaring the measurand. -/
def adjSq {α : Type} [Field α] : AdjModel α := fun R => .ok (R.map fun r => r * r, R.map fun r => 2 * r)

/-- Sensor A is the reference, sensor B is calibrated, with an adjustment model. -/
def gnModels {α δ : Type} [Field α] : SensorData α (SensorModel α δ) (AdjModel α) :=
  [("A", { parameter := [], constant := [], model := gnRef }),
   ("B", { parameter := [2, 3], constant := [], model := gnCal, adjustment_model := some adjSq, sensor_adjustment_model := some adjSq })]

theorem rolling_solvable : SolvableFiles [rolling] (gnModels : SensorData ℚ (SensorModel ℚ Int) (AdjModel ℚ)) 2 := by
  refine ⟨qfile_consistent _ _ _ _, by decide, ?_, ⟨rolling, by simp, rolling.s1, .inl rfl, rfl⟩, ?_, ?_⟩
  · intro d hd s hs
    simp only [List.mem_cons, List.not_mem_nil, or_false] at hd
    subst hd
    rcases hs with rfl | rfl <;> exact ⟨show 1 ≤ 2 by omega, show 2 ≤ 2 by omega⟩
  · intro d hd s hs c W U hc ht hW hU
    simp only [List.mem_cons, List.not_mem_nil, or_false] at hd
    subst hd
    have : s.m = 2 := by rcases hs with rfl | rfl <;> rfl
    rw [this] at hc
    have hw : ∀ c, c < 2 → (rolling.s2.wUse c = 1 ∧ rolling.s2.uUse c = 1) := by decide
    rcases hs with rfl | rfl
    · have : ∀ c, c < 2 → ¬ (rolling.s1.utype c = 3 ∨ rolling.s1.utype c = 4) := by decide
      exact absurd ht (this c hc)
    · rw [(hw c hc).1] at hW
      rw [(hw c hc).2] at hU
      obtain ⟨W', e1, e2⟩ := check_ok' (x := openW rolling 1) (fun w => decide (w = { data := [1/2, 1/2, 1/2, 1/2, 1/2, 1/2], indices := [0, 1, 1, 2, 2, 3], indptr := [0, 2, 4, 6], nrows := 3, ncols := 4 })) (by decide +kernel)
      rw [hW] at e1; cases e1
      simp only [decide_eq_true_eq] at e2
      subst e2
      obtain ⟨U', e1, e2⟩ := check_ok' (x := openU rolling 1) (fun u => decide (u = [1, 2, 3, 4])) (by decide +kernel)
      rw [hU] at e1; cases e1
      simp only [decide_eq_true_eq] at e2
      subst e2
      exact ⟨⟨rfl, rfl, by decide⟩, rfl, rfl⟩
  · intro d hd s hs e he
    simp only [List.mem_cons, List.not_mem_nil, or_false] at hd
    subst hd
    have hAB : "A" ≠ "B" := by decide
    rcases hs with rfl | rfl
    · have hn : rolling.s1.name = "A" := rfl
      simp only [gnModels, hn, List.mem_cons, Prod.mk.injEq, true_and, hAB, false_and, List.not_mem_nil, or_false] at he
      subst he
      refine ⟨(by intro B hB; cases hB), .inr ⟨gnRef_reference _ _, ?_⟩⟩
      have : ∀ c, c < rolling.s1.m → rolling.s1.utype c = 1 ∨ rolling.s1.utype c = 2 := by decide
      exact this
    · have hn : rolling.s2.name = "B" := rfl
      simp only [gnModels, hn, List.mem_cons, Prod.mk.injEq, true_and, hAB.symm, false_and, List.not_mem_nil, or_false, false_or] at he
      subst he
      refine ⟨?_, .inl ⟨gnCal_calibrated _, rfl, by simp⟩⟩
      intro B hB
      cases hB
      intro R
      exact ⟨_, _, rfl, by simp, by simp⟩

/-- The files, opened, normalised, with the solver started at the data and an upper triangular preconditioner. -/
def gnStart : Py (Evaluable ℚ Int × GN ℚ Int) := do
  let ms ← openMatchUpWith qenv defaultAdjustment [rolling] gnModels
  let nm ← ms.normalise
  pure (ms, { hd := nm, xyza := nm.mu.values ++ nm.a, S := [[1, 1/2], [0, 3]] })

end Fixture

theorem Fixture.gnStart_inv {p : Evaluable ℚ Int × GN ℚ Int} (h : Fixture.gnStart = .ok p) :
    openMatchUpWith Fixture.qenv defaultAdjustment [Fixture.rolling] Fixture.gnModels = .ok p.1 ∧ p.1.normalise = .ok p.2.hd ∧
    p.2.xyza = p.2.hd.mu.values ++ p.2.hd.a ∧ p.2.S = [[1, 1/2], [0, 3]] := by
  unfold Fixture.gnStart at h
  obtain ⟨ms, g1, h⟩ := bind_ok.1 h
  obtain ⟨nm, g2, h⟩ := bind_ok.1 h
  rw [pure_ok] at h
  subst h
  exact ⟨g1, g2, rfl, rfl⟩

theorem Fixture.qenv_enum : EnumOk Fixture.qenv.enumNat := fun l => ⟨nodup_eraseDups l, fun _ => mem_eraseDups_iff⟩

/-- The hypotheses of C28 - C31 are met by this case, and the products are not trivial. -/
theorem C28_case : ∃ (ms : Evaluable ℚ Int) (g : GN ℚ Int) (labels clabels : List String), Fixture.gnStart = .ok (ms, g) ∧
    ms.SolverReady labels clabels 2 ∧ g.Solves ms ∧ g.hd.mu.values.length = 16 ∧ g.hd.a.length = 2 ∧ g.hd.mu.ks.length = 3 ∧
    g.getJPx (List.replicate 16 1 ++ [1, 2]) = .ok (List.replicate 16 1 ++ [79671815, 44160149, 37193479]) ∧
    g.getJPTx (List.replicate 16 1 ++ [1, 2, 3]) =
      .ok [0, -1, -2, 720361, 2959621, 4933711, 3540481, 1, 1, 1, 600301, 2470501, 4145311, 2987281, 1, 11892421, 122546430, 61388073] := by
  obtain ⟨⟨⟨ms, g⟩, u, v⟩, h1, h2⟩ := Fixture.check_ok' (x := (do
      let p ← Fixture.gnStart
      let u ← p.2.getJPx (List.replicate 16 1 ++ [1, 2])
      let v ← p.2.getJPTx (List.replicate 16 1 ++ [1, 2, 3])
      pure (p, u, v) : Py ((Evaluable ℚ Int × GN ℚ Int) × List ℚ × List ℚ)))
    (fun p => decide (p.1.2.hd.mu.values.length = 16) && decide (p.1.2.hd.a.length = 2) && decide (p.1.2.hd.mu.ks.length = 3) &&
      decide (p.2.1 = List.replicate 16 1 ++ [79671815, 44160149, 37193479]) &&
      decide (p.2.2 = [0, -1, -2, 720361, 2959621, 4933711, 3540481, 1, 1, 1, 600301, 2470501, 4145311, 2987281, 1, 11892421, 122546430, 61388073]))
    (by decide +kernel)
  obtain ⟨p, g1, h1⟩ := bind_ok.1 h1
  obtain ⟨u', g2, h1⟩ := bind_ok.1 h1
  obtain ⟨v', g3, h1⟩ := bind_ok.1 h1
  rw [pure_ok] at h1
  cases h1
  simp only [Bool.and_eq_true, decide_eq_true_eq] at h2
  obtain ⟨⟨⟨⟨e1, e2⟩, e3⟩, e4⟩, e5⟩ := h2
  obtain ⟨i1, i2, i3, i4⟩ := Fixture.gnStart_inv g1
  obtain ⟨labels, clabels, hr⟩ := opened_solverReady Fixture.qenv_enum Fixture.rolling_solvable i1
  refine ⟨ms, g, labels, clabels, g1, hr, ⟨i2, ?_, ?_, ?_⟩, e1, e2, e3, by rw [← e4]; exact g2, by rw [← e5]; exact g3⟩
  · simp only at i3; rw [i3, List.length_append]
  · simp only at i4 e2; rw [i4, e2]; rfl
  · simp only at i4 e2; rw [i4, e2]; simp

/-- A vector mapped to zero is zero when every unit vector is the transposed product of some vector. -/
theorem trivial_kernel {ms : Evaluable α δ} {labels clabels : List String} {m : Nat} (h : ms.SolverReady labels clabels m) {g : GN α δ}
    (hg : g.Solves ms)
    (hY : ∀ j, j < g.hd.mu.values.length + g.hd.a.length → ∃ y, y.length = g.hd.mu.values.length + g.hd.mu.ks.length ∧
      g.getJPTx y = .ok (unitV (g.hd.mu.values.length + g.hd.a.length) j))
    (x : List α) (hx : x.length = g.hd.mu.values.length + g.hd.a.length)
    (h0 : g.getJPx x = .ok (List.replicate (g.hd.mu.values.length + g.hd.mu.ks.length) 0)) : x = List.replicate x.length 0 := by
  apply List.ext_getElem
  · simp
  · intro j h1 _
    obtain ⟨y, hy, hyj⟩ := hY j (by omega)
    obtain ⟨u, v, e1, e2, e3, e4, e5⟩ := C28_adjoint h hg x y hx hy
    rw [h0] at e1; cases e1
    rw [hyj] at e2; cases e2
    have z : dotp (List.replicate (g.hd.mu.values.length + g.hd.mu.ks.length) (0 : α)) y = 0 := by
      unfold dotp
      rw [dot_vector (by simp) hy]
      apply Finset.sum_eq_zero
      intro i hi
      have := Finset.mem_range.1 hi
      have : ent (List.replicate (g.hd.mu.values.length + g.hd.mu.ks.length) (0 : α)) i = 0 := by simp [ent, List.getD, this]
      rw [this, zero_mul]
    rw [z] at e5
    unfold dotp at e5
    rw [dot_vector hx (by simp [unitV]), dot_unitV (by omega) (ent x)] at e5
    simp only [ent, List.getD, List.getElem?_eq_getElem h1, Option.getD_some] at e5
    simp [← e5]

/-- Vectors whose transposed products are the unit vectors of the concrete case. -/
def Fixture.gnDual : List (List ℚ) := ((List.range 16).map fun j => unitV 19 j) ++
    [[-1039/2665332, 167/230325, 0, 10390/37, 406/37, -30561/37, 0, 0, 0, 0, 25975/111, 848/111, -25551/37, 0, 0, 848/37, -1039/2665332, 167/230325, 0],
      [1037/1332666, -40/27639, 0, -20740/37, -2440/111, 61000/37, 0, 0, 0, 0, -51850/111, -1700/111, 51000/37, 0, 0, -1700/37, 1037/1332666, -40/27639, 0]]

/-- The hypotheses of `C31_solvable` are met by the concrete case: its linear systems have exactly one solution. -/
theorem C31_case : ∃ (ms : Evaluable ℚ Int) (g : GN ℚ Int) (labels clabels : List String), Fixture.gnStart = .ok (ms, g) ∧
    ms.SolverReady labels clabels 2 ∧ g.Solves ms ∧
    (∀ x, x.length = g.hd.mu.values.length + g.hd.a.length →
      g.getJPx x = .ok (List.replicate (g.hd.mu.values.length + g.hd.mu.ks.length) 0) → x = List.replicate x.length 0) ∧
    ∀ b : List ℚ, b.length = g.hd.mu.values.length + g.hd.a.length → ∃! z, z.length = b.length ∧ g.calcHx z = .ok b := by
  obtain ⟨ms, g, labels, clabels, h0, hr, hs, l1, l2, l3, _⟩ := C28_case
  have hY : Fixture.gnDual.mapM g.getJPTx = .ok ((List.range 18).map fun j => unitV 18 j) := by
    obtain ⟨v, h1, h2⟩ := Fixture.check_ok' (x := (do
        let p ← Fixture.gnStart
        Fixture.gnDual.mapM p.2.getJPTx : Py (List (List ℚ))))
      (fun v => decide (v = (List.range 18).map fun j => unitV 18 j)) (by decide +kernel)
    obtain ⟨p, g1, h1⟩ := bind_ok.1 h1
    rw [h0] at g1; cases g1
    simp only [decide_eq_true_eq] at h2
    rw [← h2]; exact h1
  have hinj := trivial_kernel hr hs (by
    rw [l1, l2, l3]
    intro j hj
    have hl : Fixture.gnDual.length = 18 := by simp [Fixture.gnDual]
    obtain ⟨r, e1, e2⟩ := (mapM_ok_get hY).2 j _ (List.getElem?_eq_getElem (show j < Fixture.gnDual.length by omega))
    refine ⟨Fixture.gnDual[j]'(by omega), ?_, ?_⟩
    rotate_left
    · rw [e1]
      rw [List.getElem?_map, List.getElem?_range hj] at e2
      simp only [Option.map_some, Option.some.injEq] at e2
      rw [← e2]
    · have : ∀ y ∈ Fixture.gnDual, y.length = 19 := by decide +kernel
      exact this _ (List.getElem_mem _))
  exact ⟨ms, g, labels, clabels, h0, hr, hs, hinj, fun b hb => C31_solvable hr hs hinj b hb⟩

end Verif
