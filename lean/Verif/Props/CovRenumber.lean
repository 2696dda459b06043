import Verif.Props.CovMinresFiles
import Verif.Props.Rotation
/-
C93 with the iterative solver: the reported covariance matrices of a problem whose measured values and match-ups are listed in another order.
-/
set_option autoImplicit false
namespace Verif
open Matrix
variable {α δ : Type} [Field α]

/-- A renumbering, for two ways of counting the same number of components. -/
theorem renumber_rotation' {n n' : Nat} (p : Fin n' ≃ Fin n) : IsRotation (LinearMap.funLeft α α p : (Fin n → α) →ₗ[α] (Fin n' → α)) := by
  intro u v
  simp only [dotProduct, LinearMap.funLeft_apply]
  exact Equiv.sum_comp p fun i => u i * v i

theorem submatrix_mulVec_comp' {m n m' n' : Nat} (M : Matrix (Fin m) (Fin n) α) (q : Fin m' ≃ Fin m) (p : Fin n' ≃ Fin n) (v : Fin n → α) :
    M.submatrix q p *ᵥ (v ∘ p) = (M *ᵥ v) ∘ q := by
  funext i
  simp only [Matrix.mulVec, dotProduct, Matrix.submatrix_apply, Function.comp]
  exact Equiv.sum_comp p fun j => M (q i) j * v j

/-- The right-hand sides of the covariance solves: zero for the measured values, a row of the preconditioner for the parameters. -/
theorem px_entries {ms : Evaluable α δ} {labels clabels : List String} {m : Nat} (h : ms.SolverReady labels clabels m) {g : GN α δ} (hg : g.Solves ms) {j : Nat} (hj : j < g.hd.a.length)
    {b : Fin (g.hd.mu.values.length + g.hd.a.length) → α}
    (hb : g.calcPx true (unitV (g.hd.mu.values.length + g.hd.a.length) (g.hd.mu.values.length + j)) = .ok (List.ofFn b)) (d : Fin (g.hd.mu.values.length + g.hd.a.length)) :
    b d = if g.hd.mu.values.length ≤ (d : Nat) then ent (g.S.getD j []) (d - g.hd.mu.values.length) else 0 := by
  obtain ⟨N, n, hs⟩ := hg.setup h
  obtain ⟨js, hjs⟩ := hs.shaped
  obtain ⟨s1, s2, s3⟩ := hs.sizes
  have he := calcPx_bwd hjs (y := unitV (g.hd.mu.values.length + g.hd.a.length) (g.hd.mu.values.length + j)) (by simp [unitV, s1, s2])
  rw [hb] at he
  have he := Except.ok.inj he
  have hd : (d : Nat) < N.sum + n + labels.length := by
    have := d.2
    omega
  have e : ent (List.ofFn b) d = _ := congrArg (fun l => ent l (d : Nat)) he
  rw [ent_ofFn, ent_vector (by exact hd)] at e
  rw [e, show (N.sum + n + labels.length) = g.hd.mu.values.length + g.hd.a.length by rw [s1, s2]]
  have hc : (∑ r ∈ Finset.range (g.hd.mu.values.length + g.hd.a.length), g.preM (N.sum + n) r d * ent (unitV (g.hd.mu.values.length + g.hd.a.length) (g.hd.mu.values.length + j)) r) =
      g.preM (N.sum + n) (g.hd.mu.values.length + j) d := dot_unitV (by omega) fun r => g.preM (N.sum + n) r d
  refine hc.trans ?_
  unfold GN.preM
  rw [if_neg (by omega), ← s1, Nat.add_sub_cancel_left]

variable [LinearOrder α] [IsStrictOrderedRing α]

/-- What a covariance solve is. -/
theorem minresObject_solve {ms : Evaluable α δ} {labels clabels : List String} {m : Nat} (h : ms.SolverReady labels clabels m) {g : GN α δ} (hg : g.Solves ms)
    {J : Matrix (Fin (g.hd.mu.values.length + g.hd.mu.ks.length)) (Fin (g.hd.mu.values.length + g.hd.a.length)) α} (hJ : g.IsJacobian J) {o : MinresOpts α} {sqrt : α → Py α}
    {probes : (n : Nat) → List (Fin n → α)} {b : Fin (g.hd.mu.values.length + g.hd.a.length) → α} {z : List α} (hz : GN.minresObject o sqrt probes g (List.ofFn b) = .ok z) :
    ∃ st, Minres.solve { o with itnlim := 500 } sqrt (fun v => .ok ((Jᵀ * J) *ᵥ v)) (probes (g.hd.mu.values.length + g.hd.a.length)) b = .ok st ∧ z = List.ofFn st.x := by
  obtain ⟨N, n, hs⟩ := hg.setup h
  obtain ⟨js, hjs⟩ := hs.shaped
  obtain ⟨s1, s2, s3⟩ := hs.sizes
  have hNv : pyLast g.hd.mu.idx.idx = .ok g.hd.mu.values.length := by rw [s1]; exact GN.prodCtx_var hjs.ctx_eq
  unfold GN.minresObject at hz
  rw [hNv] at hz
  simp only [bind, Except.bind] at hz
  rw [toVec_ofFn] at hz
  simp only [] at hz
  have hop : operator (n := g.hd.mu.values.length + g.hd.a.length) (g.hd.mu.values.length + g.hd.a.length) g.calcHx = fun v => .ok ((Jᵀ * J) *ᵥ v) :=
    funext fun v => operator_ok (fun v => calcHx_isMatrix h hg hJ v) v
  rw [hop] at hz
  split at hz
  · cases hz
  · next st hst => exact ⟨st, hst, by cases hz; rfl⟩

/-- **C93, the iterative solver.** Two problems with the same preconditioner, in which the measured values (by `p`) and the residuals (by `q`) are listed in different orders, the parameters
in the same: the covariance matrices reported with the code's MINRES are equal (the vectors of its symmetry test listed in the other order, too). -/
theorem C93_renumbered {ms ms' : Evaluable α δ} {labels clabels labels' clabels' : List String} {m m' : Nat} (h : ms.SolverReady labels clabels m)
    (h' : ms'.SolverReady labels' clabels' m') {g g' : GN α δ} (hg : g.Solves ms) (hg' : g'.Solves ms') (hS : g'.S = g.S)
    {J : Matrix (Fin (g.hd.mu.values.length + g.hd.mu.ks.length)) (Fin (g.hd.mu.values.length + g.hd.a.length)) α} (hJ : g.IsJacobian J)
    {J' : Matrix (Fin (g'.hd.mu.values.length + g'.hd.mu.ks.length)) (Fin (g'.hd.mu.values.length + g'.hd.a.length)) α} (hJ' : g'.IsJacobian J')
    (q : Fin (g'.hd.mu.values.length + g'.hd.mu.ks.length) ≃ Fin (g.hd.mu.values.length + g.hd.mu.ks.length))
    (p : Fin (g'.hd.mu.values.length + g'.hd.a.length) ≃ Fin (g.hd.mu.values.length + g.hd.a.length)) (hJJ : J' = J.submatrix q p)
    (hp : ∀ d : Fin (g'.hd.mu.values.length + g'.hd.a.length), g'.hd.mu.values.length ≤ (d : Nat) → (p d : Nat) = d) {o : MinresOpts α} {sqrt : α → Py α} {probes probes' : (n : Nat) → List (Fin n → α)}
    (hprobes : probes' (g'.hd.mu.values.length + g'.hd.a.length) = (probes (g.hd.mu.values.length + g.hd.a.length)).map (· ∘ p))
    {V V' : List (List α)} (hV : g.covariance (GN.minresObject o sqrt probes) = .ok V) (hV' : g'.covariance (GN.minresObject o sqrt probes') = .ok V') :
    g'.hd.a.length = g.hd.a.length ∧ ∀ i j, i < g.hd.a.length → j < g.hd.a.length → (V'.getD i []).getD j 0 = (V.getD i []).getD j 0 := by
  have hal : g'.hd.a.length = g.hd.a.length := by rw [← hg'.rows, hS, hg.rows]
  have hcard : g'.hd.mu.values.length + g'.hd.a.length = g.hd.mu.values.length + g.hd.a.length := by simpa using Fintype.card_congr p
  have hvl : g'.hd.mu.values.length = g.hd.mu.values.length := by omega
  -- values stay values
  have hpv : ∀ d : Fin (g'.hd.mu.values.length + g'.hd.a.length), (d : Nat) < g'.hd.mu.values.length → (p d : Nat) < g.hd.mu.values.length := by
    intro d hd
    by_contra hn
    have hk : (p d : Nat) < g'.hd.mu.values.length + g'.hd.a.length := (p d).2.trans_eq hcard.symm
    have h1 := hp ⟨p d, hk⟩ (by show _ ≤ (p d : Nat); omega)
    have h2 : p ⟨p d, hk⟩ = p d := Fin.ext h1
    have h3 := congrArg Fin.val (p.injective h2)
    simp only at h3
    omega
  obtain ⟨b, z, hb, hz, e⟩ := covariance_elements h hg hV
  obtain ⟨b', z', hb', hz', e'⟩ := covariance_elements h' hg' hV'
  have hbb : ∀ j, j < g.hd.a.length → b' j = b j ∘ p := by
    intro j hj
    funext d
    rw [px_entries h' hg' (by omega) (hb' j (by omega)) d, Function.comp, px_entries h hg hj (hb j hj) (p d), hS]
    by_cases hd : g'.hd.mu.values.length ≤ (d : Nat)
    · have := hp d hd
      rw [if_pos hd, if_pos (by omega), this, ← hvl]
    · have := hpv d (by omega)
      rw [if_neg hd, if_neg (by omega)]
  have hH : ∀ v, (J'ᵀ * J') *ᵥ (v ∘ p) = ((Jᵀ * J) *ᵥ v) ∘ p := by
    intro v
    rw [hJJ, ← mulVec_mulVec, submatrix_mulVec_comp', transpose_submatrix, submatrix_mulVec_comp', mulVec_mulVec]
  have hzz : ∀ i j, i < g.hd.a.length → j < g.hd.a.length → ∃ x : Fin (g.hd.mu.values.length + g.hd.a.length) → α, z i j = List.ofFn x ∧ z' i j = List.ofFn (x ∘ p) := by
    intro i j hi hj
    obtain ⟨st, hst, hx⟩ := minresObject_solve h hg hJ (hz i j hi hj).1
    obtain ⟨st', hst', hx'⟩ := minresObject_solve h' hg' hJ' (hz' i j (by omega) (by omega)).1
    have k := C97_minres (renumber_rotation' (α := α) p) (opts := { o with itnlim := 500 }) (sqrt := sqrt) (A := fun v => .ok ((Jᵀ * J) *ᵥ v)) (A' := fun v => .ok ((J'ᵀ * J') *ᵥ v))
      (fun v => congrArg Except.ok (hH v)) (probes (g.hd.mu.values.length + g.hd.a.length)) (b j)
    rw [hst] at k
    rw [hprobes, hbb j hj] at hst'
    have k' : Except.ok st' = Except.ok (st.rotate (LinearMap.funLeft α α p)) := hst'.symm.trans k
    cases k'
    exact ⟨st.x, hx, hx'⟩
  refine ⟨hal, fun i j hi hj => ?_⟩
  rw [e' i j (by omega) (by omega), e i j hi hj]
  have hsum : ∀ i j, i < g.hd.a.length → j < g.hd.a.length → ∑ d, b' i d * (z' i j).getD d 0 = ∑ d, b i d * (z i j).getD d 0 := by
    intro i j hi hj
    obtain ⟨x, hx, hx'⟩ := hzz i j hi hj
    rw [hx, hx', hbb i hi]
    simp only [getD_ofFn, Function.comp]
    exact Equiv.sum_comp p fun d => b i d * x d
  have hsum' : ∑ d, b' j d * (z' j i).getD d 0 = ∑ d, b j d * (z j i).getD d 0 := hsum j i hj hi
  rw [hsum i j hi hj, hsum']

end Verif
