import Verif.Spec.GNKrylov
import Verif.Props.GNTotal
import Verif.Props.LsmrTotal
import Verif.Props.MinresCase
/-
C63: the steps of the Gauss-Newton algorithm are those of LSMR.
-/
set_option autoImplicit false
namespace Verif
variable {α δ : Type} [Field α]
open Matrix

theorem vector_eq_ofFn (n : Nat) (f : Nat → α) : vector n f = List.ofFn fun i : Fin n => f i := by
  apply List.ext_getElem
  · simp [vector]
  · intro i h1 h2
    simp [vector]

theorem ent_ofFn {n : Nat} (v : Fin n → α) (i : Fin n) : ent (List.ofFn v) i = v i := by
  simp [ent, List.getD, List.getElem?_ofFn]

theorem getD_ofFn {n : Nat} (v : Fin n → α) (i : Fin n) : (List.ofFn v).getD i 0 = v i := ent_ofFn v i

theorem ofFn_getD {n : Nat} {l : List α} (h : l.length = n) : List.ofFn (fun i : Fin n => l.getD i 0) = l := by
  apply List.ext_getElem
  · simp [h]
  · intro i h1 h2
    simp [List.getD, h2]

/-- A match-up of the right sizes has a Jacobian. -/
theorem jacobian_exists {ms : Evaluable α δ} {labels clabels : List String} {m : Nat} (h : ms.SolverReady labels clabels m) {g : GN α δ} (hg : g.Solves ms) :
    ∃ J : Matrix (Fin (g.hd.mu.values.length + g.hd.mu.ks.length)) (Fin (g.hd.mu.values.length + g.hd.a.length)) α, g.IsJacobian J := by
  obtain ⟨N, n, hs⟩ := hg.setup h
  obtain ⟨js, hj⟩ := hs.shaped
  obtain ⟨s1, s2, s3⟩ := hs.sizes
  rw [s1, s2, s3]
  refine ⟨fun r d => g.prodM (N.sum + n) labels.length js r d, fun v => ?_, fun u => ?_⟩
  · rw [prod_fwd_mat hj (by simp), vector_eq_ofFn]
    congr 2
    funext r
    rw [Finset.sum_range]
    simp only [ent_ofFn]
    rfl
  · rw [prod_bwd_mat hj (by simp), vector_eq_ofFn]
    congr 2
    funext r
    rw [Finset.sum_range]
    simp only [ent_ofFn]
    rfl

variable [LinearOrder α]

theorem toVec_ofFn {n : Nat} (v : Fin n → α) : toVec n (List.ofFn v) = .ok v := by
  unfold toVec
  rw [if_pos (by simp)]
  congr 1
  funext i
  exact getD_ofFn v i

theorem toVec_ok {n : Nat} {l : List α} {v : Fin n → α} (h : toVec n l = .ok v) : l = List.ofFn v := by
  unfold toVec at h
  split_ifs at h with hl
  cases h
  exact (ofFn_getD hl).symm

theorem operator_ok {m n : Nat} {f : List α → Py (List α)} {J : Matrix (Fin m) (Fin n) α} (h : ∀ v, f (List.ofFn v) = .ok (List.ofFn (J *ᵥ v))) (v : Fin n → α) :
    operator m f v = .ok (J *ᵥ v) := by
  unfold operator
  rw [h]
  exact toVec_ofFn _

variable [IsStrictOrderedRing α]

omit [IsStrictOrderedRing α] in
/-- A call of the solver in terms of the Jacobian. -/
theorem lsmrObject_ok {g : GN α δ} {N_var N_mu : Nat} (hv : pyLast g.hd.mu.idx.idx = .ok N_var) (hm : pyLast g.hd.mu.idx.cNm = .ok N_mu)
    {o : LsmrOpts α} {sqrt : α → Py α} {b : List α} {held s : Option (List α)} (h : GN.lsmrObject o sqrt g b held = .ok s) :
    ∃ (b' : Fin (N_var + N_mu) → α) (r : _ × _), b = List.ofFn b' ∧
      Lsmr.solve { o with damp := 0, itnlim := N_var } sqrt (operator (n := N_var + g.hd.a.length) (N_var + N_mu) g.getJPx)
        (operator (n := N_var + N_mu) (N_var + g.hd.a.length) g.getJPTx) b' none = .ok r ∧
      s = (r.2.map List.ofFn).or held := by
  unfold GN.lsmrObject at h
  obtain ⟨N, h1, h⟩ := bind_ok.1 h
  rw [hm] at h1; cases h1
  obtain ⟨N, h1, h⟩ := bind_ok.1 h
  rw [hv] at h1; cases h1
  obtain ⟨b', h2, h⟩ := bind_ok.1 h
  obtain ⟨r, h3, h⟩ := bind_ok.1 h
  rw [pure_ok] at h
  exact ⟨b', r, toVec_ok h2, h3, h.symm⟩

/-- When LSMR is given a zero gradient, it leaves the object as it was. -/
theorem solve_zero {m n : Nat} {A0 : Matrix (Fin m) (Fin n) α} {b : Fin m → α} {opts : LsmrOpts α} (hd : opts.damp = 0) (hh : 0 < opts.huge) {sqrt : α → Py α}
    (hs : IsSqrt sqrt) {A : (Fin n → α) → Py (Fin m → α)} {AH : (Fin m → α) → Py (Fin n → α)} (hA : ∀ v, A v = .ok (A0 *ᵥ v)) (hAH : ∀ u, AH u = .ok (A0ᵀ *ᵥ u))
    {held x : Option (Fin n → α)} {st : LsmrState α m n} (h : Lsmr.solve opts sqrt A AH b held = .ok (st, x)) (h0 : A0ᵀ *ᵥ b = 0) : x = held := by
  obtain ⟨_, _, _, hx0, _⟩ := lsmrSolve_ok hd hh hs hA hAH h
  exact hx0 h0

omit [LinearOrder α] [IsStrictOrderedRing α] in
theorem krylov_neg {n : Nat} (M : Matrix (Fin n) (Fin n) α) (b : Fin n → α) (k : Nat) : krylov M (-b) k = krylov M b k := by
  unfold krylov
  apply le_antisymm
  · rw [Submodule.span_le]
    rintro v ⟨j, hj, rfl⟩
    rw [Matrix.mulVec_neg]
    exact Submodule.neg_mem _ (Submodule.subset_span ⟨j, hj, rfl⟩)
  · rw [Submodule.span_le]
    rintro v ⟨j, hj, rfl⟩
    have : (M ^ j) *ᵥ b = -((M ^ j) *ᵥ (-b)) := by rw [Matrix.mulVec_neg, neg_neg]
    rw [this]
    exact Submodule.neg_mem _ (Submodule.subset_span ⟨j, hj, rfl⟩)

omit [IsStrictOrderedRing α] in
theorem normSq_neg {n : Nat} (v : Fin n → α) : normSq (-v) = normSq v := by simp [normSq]

/-- One step. -/
theorem lsmrStep_ok {ms : Evaluable α δ} {labels clabels : List String} {m : Nat} (h : ms.SolverReady labels clabels m) {g : GN α δ} (hg : g.Solves ms)
    (hpos : 1 ≤ g.hd.mu.values.length) {o : LsmrOpts α} (hh : 0 < o.huge) {sqrt : α → Py α} (hs : IsSqrt sqrt) {tol : GNTol α}
    {x y : List α × Option (List α)} {line : GNLogLine α} (hx : x.1.length = g.hd.mu.values.length + g.hd.a.length)
    (hx2 : ∀ w, x.2 = some w → w.length = g.hd.mu.values.length + g.hd.a.length) (hstep : g.Step (GN.lsmrObject o sqrt) tol x line y) :
    g.LsmrStep (g.hd.mu.values.length + g.hd.mu.ks.length) (g.hd.mu.values.length + g.hd.a.length) x y := by
  obtain ⟨J, hJ⟩ := jacobian_exists h (g := { g with xyza := x.1 }) ⟨hg.norm, hx, hg.rows, hg.cols⟩
  obtain ⟨N, n, hset⟩ := hg.setup h
  obtain ⟨s1, s2, s3⟩ := hset.sizes
  have hv := hset.var_eq
  have hm := hset.mu_eq
  rw [← s1] at hv
  rw [← s3] at hm
  obtain ⟨f, z, d, f', grad, nx, h1, h2, h3, h4, h5, _⟩ := hstep
  obtain ⟨b', ⟨st, x'⟩, e1, e2, e3⟩ := lsmrObject_ok (g := { g with xyza := x.1 }) hv hm h2
  have hf : f = List.ofFn (-b') := by
    have : f = (f.map fun r => -r).map fun r => -r := by simp
    rw [this, e1, List.map_ofFn]
    rfl
  have hz : z.length = g.hd.mu.values.length + g.hd.a.length := by
    rcases x' with _ | w
    · exact hx2 z e3.symm
    · simp only [Option.map_some, Option.some_or, Option.some.injEq] at e3
      rw [e3]
      simp
  have hd : d.length = g.hd.mu.values.length + g.hd.a.length := by
    obtain ⟨d', q1, q2⟩ := calcPx_total hset false (x := z) (by rw [hz, s1, s2])
    rw [q1] at h4; cases h4
    rw [q2, hz]
  have hA := operator_ok hJ.1
  have hAH := operator_ok hJ.2
  have hsolve := C62_lsmr (opts := { o with damp := 0, itnlim := g.hd.mu.values.length }) rfl hh hs hA hAH e2
  have hcode := C38_lsmr (opts := { o with damp := 0, itnlim := g.hd.mu.values.length }) rfl hh hs hA hAH e2
  have hzero := solve_zero (opts := { o with damp := 0, itnlim := g.hd.mu.values.length }) rfl hh hs hA hAH e2
  have hneg : Jᵀ *ᵥ (-b') = -(Jᵀ *ᵥ b') := Matrix.mulVec_neg _ _
  refine ⟨J, -b', fun i => z.getD i 0, fun i => d.getD i 0, hJ, by rw [h1, hf], by rw [ofFn_getD hz]; exact h3, by rw [ofFn_getD hz, ofFn_getD hd]; exact h4, ?_, ?_, ?_⟩
  · rw [npZip_eq (by rw [hx, hd])] at h5
    rw [← Except.ok.inj h5]
    apply List.ext_getElem
    · simp [hx, hd]
    · intro i i1 i2
      have j1 : i < x.1.length := by rw [hx]; simpa using i2
      have j2 : i < d.length := by rw [hd]; simpa using i2
      simp [List.getD, j1, j2]
  · intro hne
    have hne' : Jᵀ *ᵥ b' ≠ 0 := fun h0 => hne (by rw [hneg, h0, neg_zero])
    obtain ⟨c1, c2, c3, c4, _, _, _, _, _, _, c5⟩ := hsolve
    have hx' := c1 hne'
    rw [hx'] at e3
    simp only [Option.map_some, Option.some_or, Option.some.injEq] at e3
    have hzx : (fun i : Fin (g.hd.mu.values.length + g.hd.a.length) => z.getD i 0) = st.x := by
      funext i
      rw [e3]
      exact getD_ofFn _ _
    rw [hzx]
    refine ⟨st.itn, c2, ?_, ?_, ?_⟩
    · by_contra h0
      rcases hcode.2.2.1.1 (by omega) with h0 | h0
      · exact hne' h0
      · have : g.hd.mu.values.length = 0 := h0
        omega
    · rw [hneg, krylov_neg]; exact c4
    · intro w hw
      rw [hneg, krylov_neg] at hw
      have := c5 w hw
      have e : ∀ v, Jᵀ *ᵥ (-b' + J *ᵥ v) = -(Jᵀ *ᵥ (b' - J *ᵥ v)) := by
        intro v
        rw [← Matrix.mulVec_neg]
        congr 1
        abel
      rw [e, e, normSq_neg, normSq_neg]
      exact this
  · intro h0
    have h0' : Jᵀ *ᵥ b' = 0 := by rw [hneg, neg_eq_zero] at h0; exact h0
    rw [hzero h0'] at e3
    rw [h3, e3]
    rfl

theorem lsmrSteps_ok {ms : Evaluable α δ} {labels clabels : List String} {m : Nat} (h : ms.SolverReady labels clabels m) {g : GN α δ} (hg : g.Solves ms)
    (hpos : 1 ≤ g.hd.mu.values.length) {o : LsmrOpts α} (hh : 0 < o.huge) {sqrt : α → Py α} (hs : IsSqrt sqrt) {tol : GNTol α} :
    ∀ {ls : List (GNLogLine α)} {x y : List α × Option (List α)}, x.1.length = g.hd.mu.values.length + g.hd.a.length →
      (∀ w, x.2 = some w → w.length = g.hd.mu.values.length + g.hd.a.length) → g.Steps (GN.lsmrObject o sqrt) tol x ls y →
      g.LsmrSteps (g.hd.mu.values.length + g.hd.mu.ks.length) (g.hd.mu.values.length + g.hd.a.length) ls.length x y
  | [], x, y, _, _, hst => hst
  | l :: ls, x, y, hx, hx2, hst => by
    obtain ⟨w, h1, h2⟩ := hst
    have hw := lsmrStep_ok h hg hpos hh hs hx hx2 h1
    refine ⟨w, hw, lsmrSteps_ok h hg hpos hh hs ?_ ?_ h2⟩
    · obtain ⟨_, _, _, _, _, _, _, _, e, _⟩ := hw
      rw [e]; simp
    · obtain ⟨_, _, _, _, _, _, e, _⟩ := hw
      intro v hv
      rw [e] at hv
      cases hv
      simp

/-- **C63.** A run of the algorithm with the LSMR solver as coded is a sequence of such steps: each one is the best step of the Jacobian and residuals at the estimate before
it, whatever was solved before, unless the gradient is zero there. -/
theorem C63_run {ms : Evaluable α δ} {labels clabels : List String} {m : Nat} (h : ms.SolverReady labels clabels m) {g : GN α δ} (hg : g.Solves ms)
    {o : LsmrOpts α} (hh : 0 < o.huge) {sqrt : α → Py α} (hs : IsSqrt sqrt) {tol : GNTol α} {minres : GN α δ → List α → Py (List α)} {rc : Bool} {res : GNResult α}
    (hrun : g.run (GN.lsmrObject o sqrt) minres tol rc = .ok res) :
    g.LsmrSteps (g.hd.mu.values.length + g.hd.mu.ks.length) (g.hd.mu.values.length + g.hd.a.length) res.state.niter (g.xyza, none) (res.state.xyza, res.state.solution) := by
  obtain ⟨N_var, f, h1, h2, h3, h4, h5, _⟩ := C32_loop hrun
  rw [h3]
  refine lsmrSteps_ok h hg ?_ hh hs hg.xyza (fun w hw => by cases hw) h2
  obtain ⟨N, n, hset⟩ := hg.setup h
  have hv := hset.var_eq
  rw [← hset.sizes.1] at hv
  unfold pyLast at hv
  rw [pyGet_ok] at hv
  rw [List.getLast?_eq_getElem?, hv] at h1
  cases h1
  omega

/-- **C63, failure: a start without gradient.** If the gradient is zero at the starting estimate (for instance because the data satisfy the model exactly), no run returns: the
solver object holds no vector yet, and the algorithm uses it. -/
theorem C63_stationary_start_fails {ms : Evaluable α δ} {labels clabels : List String} {m : Nat} (h : ms.SolverReady labels clabels m) {g : GN α δ} (hg : g.Solves ms)
    {o : LsmrOpts α} (hh : 0 < o.huge) {sqrt : α → Py α} (hs : IsSqrt sqrt) {tol : GNTol α} {minres : GN α δ → List α → Py (List α)} {rc : Bool}
    {f grad : List α} (hf : g.calcF g.xyza = .ok f) (hgr : g.getJPTx f = .ok grad) (h0 : ∀ e ∈ grad, e = 0) :
    ∀ res, g.run (GN.lsmrObject o sqrt) minres tol rc ≠ .ok res := by
  intro res hrun
  have hst := C63_run h hg hh hs hrun
  obtain ⟨_, _, _, _, _, hn, _⟩ := C32_loop hrun
  obtain ⟨k, hk⟩ : ∃ k, res.state.niter = k + 1 := ⟨res.state.niter - 1, by omega⟩
  rw [hk] at hst
  obtain ⟨w, ⟨J, fv, z, d, hJ, e1, e2, _, _, _, e3⟩, _⟩ := hst
  rw [hf] at e1
  have e1' := Except.ok.inj e1
  have hgr2 := hJ.2 fv
  rw [← e1'] at hgr2
  have hgr' := Except.ok.inj (hgr.symm.trans hgr2)
  have hz : Jᵀ *ᵥ fv = 0 := by
    funext i
    exact h0 _ (by rw [hgr']; exact List.mem_ofFn.2 ⟨i, rfl⟩)
  rw [e2] at e3
  cases e3 hz

omit [IsStrictOrderedRing α] in
/-- **C63, failure: a step is repeated.** If the gradient is zero at an estimate reached by a step, and the loop goes on, the next step is the same again. -/
theorem C63_repeated_step {g : GN α δ} {m n : Nat} {x y w : List α × Option (List α)} (h1 : g.LsmrStep m n x y) (h2 : g.LsmrStep m n y w) {f grad : List α}
    (hf : g.calcF y.1 = .ok f) (hgr : ({ g with xyza := y.1 } : GN α δ).getJPTx f = .ok grad) (h0 : ∀ e ∈ grad, e = 0) (hx : x.1.length = n) :
    ∃ d : List α, npZip (· + ·) x.1 d = .ok y.1 ∧ npZip (· + ·) y.1 d = .ok w.1 := by
  obtain ⟨_, _, z, d, _, _, a2, a3, a4, _⟩ := h1
  obtain ⟨J, fv, z', d', hJ, e1, e2, e4, e5, _, e3⟩ := h2
  rw [hf] at e1
  have hgr2 := hJ.2 fv
  rw [← Except.ok.inj e1] at hgr2
  have hgr' := Except.ok.inj (hgr.symm.trans hgr2)
  have hz : Jᵀ *ᵥ fv = 0 := by
    funext i
    exact h0 _ (by rw [hgr']; exact List.mem_ofFn.2 ⟨i, rfl⟩)
  have e6 := e3 hz
  rw [e2, a2] at e6
  have ezz := Option.some.inj e6
  rw [ezz, a3] at e4
  have edd := Except.ok.inj e4
  have hdd : d = d' := by
    funext i
    rw [← getD_ofFn d i, ← getD_ofFn d' i, edd]
  have key : ∀ {x y : List α}, x.length = n → y = List.ofFn (fun i : Fin n => x.getD i 0 + d i) → npZip (· + ·) x (List.ofFn d) = .ok y := by
    intro x y hx hy
    rw [npZip_eq (by simp [hx]), hy]
    congr 1
    apply List.ext_getElem
    · simp [hx]
    · intro i i1 i2
      have j1 : i < x.length := by rw [hx]; simpa using i2
      simp [List.getD, j1]
  refine ⟨List.ofFn d, key hx a4, key (by rw [a4]; simp) ?_⟩
  rw [e5, ← hdd]

end Verif
