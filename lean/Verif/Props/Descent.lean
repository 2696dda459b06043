import Verif.Props.GNKrylov
import Verif.Props.Jacobian
import Verif.Spec.Descent
import Verif.Spec.Order
import Verif.Lemmas.Descent
import Mathlib.Analysis.Calculus.MeanValue
import Mathlib.Analysis.Calculus.Deriv.Mul
import Mathlib.Analysis.Calculus.Deriv.Shift
/-
C87: the steps of the Gauss-Newton algorithm go downhill.
-/
set_option autoImplicit false
namespace Verif
open Matrix
variable {α δ : Type}

section
variable [Field α]

theorem dotp_ofFn {n : Nat} (u v : Fin n → α) : dotp (List.ofFn u) (List.ofFn v) = u ⬝ᵥ v := by
  unfold dotp dotProduct
  rw [← List.sum_ofFn]
  congr 1
  apply List.ext_getElem <;> simp

theorem zip_ofFn {n : Nat} (u v : Fin n → α) : List.zipWith (· + ·) (List.ofFn u) (List.ofFn v) = List.ofFn (u + v) := by
  apply List.ext_getElem <;> simp

variable [LinearOrder α] [IsStrictOrderedRing α]

/-- **C62 (LSMR), residual.** The residual of the returned vector is never larger than that of zero, and the vector never points away from the solution. -/
theorem C62_lsmr_residual {m n : Nat} {A0 : Matrix (Fin m) (Fin n) α} {b : Fin m → α} {opts : LsmrOpts α} (hd : opts.damp = 0) (hh : 0 < opts.huge) {sqrt : α → Py α}
    (hs : IsSqrt sqrt) {A : (Fin n → α) → Py (Fin m → α)} {AH : (Fin m → α) → Py (Fin n → α)} (hA : ∀ v, A v = .ok (A0 *ᵥ v))
    (hAH : ∀ u, AH u = .ok (A0ᵀ *ᵥ u)) {held : Option (Fin n → α)} {st : LsmrState α m n} {x : Option (Fin n → α)}
    (h : Lsmr.solve opts sqrt A AH b held = .ok (st, x)) :
    normSq (b - A0 *ᵥ st.x) + normSq (A0 *ᵥ st.x) ≤ normSq b ∧ normSq (A0 *ᵥ st.x) ≤ b ⬝ᵥ (A0 *ᵥ st.x) := by
  obtain ⟨_, _, _, h1, _, _, _, _, _, _, h2⟩ := C62_lsmr hd hh hs hA hAH h
  have e : ∀ w, A0ᵀ *ᵥ b - (A0ᵀ * A0) *ᵥ w = A0ᵀ *ᵥ (b - A0 *ᵥ w) := by
    intro w
    rw [mulVec_sub, mulVec_mulVec]
  have h3 := best_gradient_dot (A := A0) (b := b) rfl h1 (fun y hy => by rw [e, e]; exact h2 y hy)
  have e2 : st.x ⬝ᵥ (A0ᵀ *ᵥ b) = b ⬝ᵥ (A0 *ᵥ st.x) := by
    rw [dotProduct_mulVec, vecMul_transpose, dotProduct_comm]
  rw [e2] at h3
  refine ⟨?_, h3⟩
  rw [normSq_eq, normSq_eq, normSq_eq, sub_dotProduct, dotProduct_sub, dotProduct_sub, dotProduct_comm (A0 *ᵥ st.x) b]
  linarith

/-- **C87, one step.** A step of the algorithm with the LSMR solver goes downhill, unless the gradient is zero. -/
theorem LsmrStep.descends {g : GN α δ} {m n : Nat} {x y : List α × Option (List α)} (h : g.LsmrStep m n x y) (hx : x.1.length = n) :
    g.Descends x.1 y.1 ∨ g.Flat x.1 := by
  obtain ⟨J, f, z, d, hJ, e1, e2, e3, e4, e5, e6⟩ := h
  by_cases hz : Jᵀ *ᵥ f = 0
  · refine .inr ⟨_, _, e1, hJ.2 f, ?_⟩
    intro e he
    rw [hz] at he
    obtain ⟨i, rfl⟩ := List.mem_ofFn.1 he
    rfl
  · obtain ⟨q1, q2⟩ := (e5 hz).descends hz
    refine .inl ⟨List.ofFn f, List.ofFn z, List.ofFn (J *ᵥ z), ⟨List.ofFn d, e1, e3, ?_, hJ.1 z, by simp [hx], by simp⟩, ?_, ?_⟩
    · rw [npZip_eq (by simp [hx]), e4]
      congr 1
      apply List.ext_getElem
      · simp [hx]
      · intro i i1 i2
        have j1 : i < x.1.length := by rw [hx]; simpa using i2
        simp [List.getD, j1]
    · rw [dotp_ofFn]; exact q1
    · rw [zip_ofFn, dotp_ofFn, dotp_ofFn]; exact q2

theorem Steps.path {ms : Evaluable α δ} {labels clabels : List String} {m : Nat} (h : ms.SolverReady labels clabels m) {g : GN α δ} (hg : g.Solves ms)
    (hpos : 1 ≤ g.hd.mu.values.length) {o : LsmrOpts α} (hh : 0 < o.huge) {sqrt : α → Py α} (hs : IsSqrt sqrt) {tol : GNTol α} :
    ∀ {ls : List (GNLogLine α)} {x y : List α × Option (List α)}, x.1.length = g.xyza.length → (∀ w, x.2 = some w → w.length = g.xyza.length) →
      g.Steps (GN.lsmrObject o sqrt) tol x ls y →
    ∃ xs : List (List α × Option (List α)), xs.length = ls.length + 1 ∧ xs.head? = some x ∧ xs.getLast? = some y ∧ (∀ a ∈ xs, a.1.length = g.xyza.length) ∧
      ∀ i a b, xs[i]? = some a → xs[i + 1]? = some b → (∃ line, ls[i]? = some line ∧ g.Step (GN.lsmrObject o sqrt) tol a line b) ∧ (g.Descends a.1 b.1 ∨ g.Flat a.1)
  | [], x, y, hx, _, hst => by
    have h' : x = y := hst
    subst h'
    refine ⟨[x], rfl, rfl, rfl, by simpa using hx, ?_⟩
    intro i a b ha hb
    simp at hb
  | l :: ls, x, y, hx, hx2, hst => by
    obtain ⟨w, h1, h2⟩ := hst
    have hw := lsmrStep_ok h hg hpos hh hs (hx.trans hg.xyza) (fun v hv => (hx2 v hv).trans hg.xyza) h1
    have hw1 : w.1.length = g.xyza.length := by
      obtain ⟨_, _, _, _, _, _, _, _, e, _⟩ := hw
      rw [e, hg.xyza]; simp
    have hw2 : ∀ v, w.2 = some v → v.length = g.xyza.length := by
      obtain ⟨_, _, _, _, _, _, e, _⟩ := hw
      intro v hv
      rw [e] at hv
      cases hv
      rw [hg.xyza]; simp
    obtain ⟨xs, a1, a2, a3, a5, a4⟩ := Steps.path h hg hpos hh hs hw1 hw2 h2
    obtain ⟨w', xs', rfl⟩ : ∃ w' xs', xs = w' :: xs' := by
      cases xs with
      | nil => simp at a1
      | cons w' xs' => exact ⟨w', xs', rfl⟩
    have a2' : w' = w := by simpa using a2
    subst a2'
    refine ⟨x :: w' :: xs', by simpa using a1, rfl, ?_, ?_, ?_⟩
    · rw [List.getLast?_cons_cons]; exact a3
    · intro a ha
      rcases List.mem_cons.1 ha with rfl | ha
      · exact hx
      · exact a5 a ha
    · intro i a b ha hb
      cases i with
      | zero =>
        simp at ha hb
        subst ha; subst hb
        exact ⟨⟨l, rfl, h1⟩, LsmrStep.descends hw (hx.trans hg.xyza)⟩
      | succ i => exact a4 i a b (by simpa using ha) (by simpa using hb)

/-- **C87.** A run of the algorithm with the LSMR solver as coded goes through a sequence of estimates (with what the solver object then holds), each step of which goes downhill,
except from an estimate where the gradient is zero. -/
theorem C87_run {ms : Evaluable α δ} {labels clabels : List String} {m : Nat} (h : ms.SolverReady labels clabels m) {g : GN α δ} (hg : g.Solves ms)
    {o : LsmrOpts α} (hh : 0 < o.huge) {sqrt : α → Py α} (hs : IsSqrt sqrt) {tol : GNTol α} {minres : GN α δ → List α → Py (List α)} {rc : Bool} {res : GNResult α}
    (hrun : g.run (GN.lsmrObject o sqrt) minres tol rc = .ok res) :
    ∃ xs : List (List α × Option (List α)), xs.length = res.state.niter + 1 ∧ xs.head? = some (g.xyza, none) ∧ xs.getLast? = some (res.state.xyza, res.state.solution) ∧
      (∀ x ∈ xs, x.1.length = g.xyza.length) ∧
      ∀ i x y, xs[i]? = some x → xs[i + 1]? = some y →
        (∃ line, res.state.log[i]? = some line ∧ g.Step (GN.lsmrObject o sqrt) tol x line y) ∧ (g.Descends x.1 y.1 ∨ g.Flat x.1) := by
  obtain ⟨N_var, f, h1, h2, h3, h4, h5, _⟩ := C32_loop hrun
  rw [h3]
  refine Steps.path h hg ?_ hh hs rfl (fun w hw => by cases hw) h2
  obtain ⟨N, n, hset⟩ := hg.setup h
  have hv := hset.var_eq
  rw [← hset.sizes.1] at hv
  unfold pyLast at hv
  rw [pyGet_ok] at hv
  rw [List.getLast?_eq_getElem?, hv] at h1
  cases h1
  omega

/-- **C87, linear models.** Where the residuals are a linear function of the step, a step which goes downhill lowers the cost. -/
theorem C87_linear_step {g : GN α δ} {x y : List α} (hl : g.LinearAt x) (h : g.Descends x y) : ∃ q q', g.CostAt x q ∧ g.CostAt y q' ∧ q' < q := by
  obtain ⟨f, z, u, hst, _, h2⟩ := h
  have hst' := hst
  obtain ⟨d, e1, _⟩ := hst'
  exact ⟨_, _, ⟨f, e1, rfl⟩, ⟨_, hl y f z u hst, rfl⟩, h2⟩
end

section
variable [Field α] [LinearOrder α] [IsStrictOrderedRing α]

theorem dotp_nonneg : ∀ v : List α, 0 ≤ dotp v v
  | [] => by simp [dotp]
  | a :: l => by
    have := dotp_nonneg l
    unfold dotp at this ⊢
    rw [List.zipWith_cons_cons, List.sum_cons]
    have := mul_self_nonneg a
    linarith

theorem dotp_zero_right : ∀ (u v : List α), (∀ e ∈ v, e = 0) → dotp u v = 0
  | [], v, _ => by simp [dotp]
  | a :: u, [], _ => by simp [dotp]
  | a :: u, b :: v, h => by
    have := dotp_zero_right u v fun e he => h e (List.mem_cons_of_mem _ he)
    unfold dotp at this ⊢
    rw [List.zipWith_cons_cons, List.sum_cons, this, h b (List.mem_cons_self ..)]
    simp

theorem dotp_comm : ∀ u v : List α, dotp u v = dotp v u
  | [], v => by simp [dotp]
  | a :: u, [] => by simp [dotp]
  | a :: u, b :: v => by
    have := dotp_comm u v
    unfold dotp at this ⊢
    rw [List.zipWith_cons_cons, List.zipWith_cons_cons, List.sum_cons, List.sum_cons, this, mul_comm]

theorem dotp_add_sq : ∀ f u : List α, u.length = f.length →
    dotp (List.zipWith (· + ·) f u) (List.zipWith (· + ·) f u) = dotp f f + 2 * dotp f u + dotp u u
  | [], [], _ => by simp [dotp]
  | a :: f, b :: u, h => by
    have := dotp_add_sq f u (by simpa using h)
    unfold dotp at this ⊢
    simp only [List.zipWith_cons_cons, List.sum_cons, this]
    ring
  | [], _ :: _, h => by simp at h
  | _ :: _, [], h => by simp at h

/-- **C87, linear models: the zeros of the gradient.** Where the residuals are a linear function of the step, an estimate without gradient has the least cost of all the estimates which
a step leads to; if steps lead everywhere, it is optimal. -/
theorem C87_linear_flat {ms : Evaluable α δ} {labels clabels : List String} {m : Nat} (h : ms.SolverReady labels clabels m) {g : GN α δ} (hg : g.Solves ms) {x : List α}
    (hx : x.length = g.xyza.length) (hl : g.LinearAt x) (hf : g.Flat x) : ∃ q, g.CostAt x q ∧ ∀ y f z u, g.StepTo x y f z u → ∃ q', g.CostAt y q' ∧ q ≤ q' := by
  obtain ⟨f, grad, e1, e2, e3⟩ := hf
  refine ⟨dotp f f, ⟨f, e1, rfl⟩, ?_⟩
  intro y f' z u hst
  have hst' := hst
  obtain ⟨d, s1, s2, s3, s4, s5, s6⟩ := hst'
  rw [e1] at s1; cases s1
  refine ⟨_, ⟨_, hl y f z u hst, rfl⟩, ?_⟩
  have hg' : (g.move x).Solves ms := ⟨hg.norm, hx.trans hg.xyza, hg.rows, hg.cols⟩
  have hz : z.length = g.hd.mu.values.length + g.hd.a.length := by rw [s5, hx, hg.xyza]
  have hfl : f.length = g.hd.mu.values.length + g.hd.mu.ks.length := by
    rw [← s6]
    obtain ⟨u', v', a1, _, a2, _⟩ := C28_adjoint h hg' z (List.replicate (g.hd.mu.values.length + g.hd.mu.ks.length) 0) hz (by simp [GN.move])
    have := Except.ok.inj (a1.symm.trans s4)
    rw [← this, a2]; simp
  obtain ⟨u', v', a1, a2, _, _, a3⟩ := C28_adjoint h hg' z f hz hfl
  rw [s4] at a1; cases a1
  rw [e2] at a2; cases a2
  rw [dotp_zero_right z grad e3] at a3
  rw [dotp_add_sq f u s6, dotp_comm f u, a3]
  have := dotp_nonneg u
  linarith

/-- **C87, linear models: optimality.** If, besides, the preconditioner is onto, an estimate without gradient is optimal. -/
theorem C87_linear_optimal {ms : Evaluable α δ} {labels clabels : List String} {m : Nat} (h : ms.SolverReady labels clabels m) {g : GN α δ} (hg : g.Solves ms) {x : List α}
    (hx : x.length = g.xyza.length) (hl : g.LinearAt x) (hf : g.Flat x) (honto : ∀ d, d.length = g.xyza.length → ∃ z, z.length = g.xyza.length ∧ g.calcPx false z = .ok d) :
    ∃ q, g.CostAt x q ∧ g.Optimal (x.drop g.hd.mu.values.length) q := by
  obtain ⟨q, ⟨f, e1, e2⟩, h2⟩ := C87_linear_flat h hg hx hl hf
  refine ⟨q, ⟨f, e1, e2⟩, x, f, hx, rfl, e1, e2, ?_⟩
  intro x' f' hx' hf'
  have hg' : (g.move x).Solves ms := ⟨hg.norm, hx.trans hg.xyza, hg.rows, hg.cols⟩
  obtain ⟨z, hz, hd⟩ := honto (List.zipWith (· - ·) x' x) (by simp [hx', hx])
  obtain ⟨N, n, hset⟩ := hg.setup h
  obtain ⟨s1, s2, s3⟩ := hset.sizes
  have hy : npZip (· + ·) x (List.zipWith (· - ·) x' x) = .ok x' := by
    rw [npZip_eq (by simp [hx', hx])]
    congr 1
    apply List.ext_getElem
    · simp [hx', hx]
    · intro i i1 i2
      simp
  obtain ⟨u, _, a1, _, a2, _⟩ := C28_adjoint h hg' z (List.replicate ((g.move x).hd.mu.values.length + (g.move x).hd.mu.ks.length) 0) (hz.trans hg.xyza) (by simp)
  obtain ⟨f0, b1, b2⟩ := calcF_total hset (x := x) (by rw [hx, hset.xlen])
  rw [e1] at b1; cases b1
  have hst : g.StepTo x x' f z u := ⟨_, e1, hd, hy, a1, by rw [hz, hx], by
    rw [a2, b2, List.length_replicate, ← s1, ← s3]; rfl⟩
  obtain ⟨q', ⟨f'', c1, c2⟩, c3⟩ := h2 x' f z u hst
  rw [hf'] at c1; cases c1
  rw [← c2]
  exact c3
end

/-! ### Smooth models -/

theorem along_len {x d : List ℝ} (h : d.length = x.length) (t : ℝ) : (along x d t).length = x.length := by
  simp [along, h]

theorem along_at_zero {x d : List ℝ} (h : d.length = x.length) : along x d 0 = x := by
  apply List.ext_getElem
  · simp [along, h]
  · intro i h1 h2
    simp [along]

theorem along_one {x d y : List ℝ} (h : npZip (· + ·) x d = .ok y) (hd : d.length = x.length) : along x d 1 = y := by
  rw [npZip_eq hd.symm] at h
  rw [← Except.ok.inj h]
  simp [along]

theorem along_along {x d : List ℝ} (h : d.length = x.length) (s t : ℝ) : along (along x d s) d t = along x d (s + t) := by
  apply List.ext_getElem
  · simp [along, h]
  · intro i h1 h2
    simp only [along, List.getElem_zipWith]
    ring

theorem along_segment {x d y : List ℝ} (h : npZip (· + ·) x d = .ok y) (hd : d.length = x.length) (t : ℝ) : segment x y t = along x d t := by
  rw [npZip_eq hd.symm] at h
  rw [← Except.ok.inj h]
  apply List.ext_getElem
  · simp [along, segment, hd]
  · intro i h1 h2
    simp only [along, segment, List.getElem_zipWith]
    ring

theorem dotp_range {a b : List ℝ} {n : Nat} (ha : a.length = n) (hb : b.length = n) : dotp a b = ∑ r ∈ Finset.range n, a.getD r 0 * b.getD r 0 := by
  unfold dotp
  rw [← list_sum_range]
  congr 1
  apply List.ext_getElem
  · simp [ha, hb]
  · intro i h1 h2
    have i1 : i < a.length := by rw [ha]; simpa using h2
    have i2 : i < b.length := by rw [hb]; simpa using h2
    simp [List.getD, i1, i2]

/-- **C87, gradient.** Where the models are smooth and have the derivatives they declare: the cost is defined along every line `x + t P z` through the estimate, and its derivative is
twice the product of `z` and the vector which the solver computes as gradient. -/
theorem C87_gradient {ms : Evaluable ℝ δ} {labels clabels : List String} {m : Nat} (h : ms.SolverReady labels clabels m) {g : GN ℝ δ} (hg : g.Solves ms)
    (hsm : g.Smooth ms labels clabels) {f : List ℝ} (hf : g.calcF g.xyza = .ok f) : ∃ grad, g.getJPTx f = .ok grad ∧ grad.length = g.xyza.length ∧
      ∀ z, z.length = g.xyza.length → ∃ d, g.calcPx false z = .ok d ∧ d.length = g.xyza.length ∧
        ∃ C : ℝ → ℝ, (∀ t, g.CostAt (along g.xyza d t) (C t)) ∧ C 0 = dotp f f ∧ HasDerivAt C (2 * dotp z grad) 0 := by
  have hfl : f.length = g.hd.mu.values.length + g.hd.mu.ks.length := by
    obtain ⟨w, u, a1, a2, a3, a4, F, a5, _⟩ := C30_jacobian h hg hsm (List.replicate (g.hd.mu.values.length + g.hd.a.length) 0) (by simp)
    have h0 := a5 0
    rw [along_at_zero a3, hf] at h0
    rw [Except.ok.inj h0.1, h0.2, a4]
  obtain ⟨_, grad, _, q2, _, q4, _⟩ := C28_adjoint h hg (List.replicate (g.hd.mu.values.length + g.hd.a.length) 0) f (by simp) hfl
  refine ⟨grad, q2, by rw [q4, hg.xyza]; simp, ?_⟩
  intro z hz
  obtain ⟨w, u, a1, a2, a3, a4, F, a5, a6⟩ := C30_jacobian h hg hsm z (by rw [hz, hg.xyza])
  obtain ⟨u', grad', b1, b2, b3, b4, b5⟩ := C28_adjoint h hg z f (by rw [hz, hg.xyza]) hfl
  rw [a2] at b1; cases b1
  rw [q2] at b2; cases b2
  have hF0 : F 0 = f := by
    have h0 := (a5 0).1
    rw [along_at_zero a3, hf] at h0
    exact (Except.ok.inj h0).symm
  refine ⟨w, a1, a3, fun t => dotp (F t) (F t), fun t => ⟨F t, (a5 t).1, rfl⟩, by show dotp (F 0) (F 0) = _; rw [hF0], ?_⟩
  have e1 : (fun t => dotp (F t) (F t)) = fun t => ∑ r ∈ Finset.range u.length, (F t).getD r 0 * (F t).getD r 0 := by
    funext t
    exact dotp_range (a5 t).2 (a5 t).2
  have e2 : 2 * dotp z grad = ∑ r ∈ Finset.range u.length, (u.getD r 0 * (F 0).getD r 0 + (F 0).getD r 0 * u.getD r 0) := by
    rw [← b5, hF0, dotp_range (n := u.length) rfl b3.symm, Finset.mul_sum]
    refine Finset.sum_congr rfl fun r _ => ?_
    ring
  rw [e1, e2]
  have e3 : (fun t => ∑ r ∈ Finset.range u.length, (F t).getD r 0 * (F t).getD r 0) = ∑ r ∈ Finset.range u.length, fun t => (F t).getD r 0 * (F t).getD r 0 := by
    funext t
    rw [Finset.sum_apply]
  rw [e3]
  refine HasDerivAt.sum fun r hr => ?_
  have hd := a6 r (Finset.mem_range.1 hr)
  exact hd.mul hd

/-- **C87, zeros of the gradient.** The gradient is zero at the estimate exactly if the cost has derivative zero along all the lines of the steps. -/
theorem C87_flat_iff {ms : Evaluable ℝ δ} {labels clabels : List String} {m : Nat} (h : ms.SolverReady labels clabels m) {g : GN ℝ δ} (hg : g.Solves ms)
    (hsm : g.Smooth ms labels clabels) {f : List ℝ} (hf : g.calcF g.xyza = .ok f) :
    g.Flat g.xyza ↔ ∀ z d, z.length = g.xyza.length → g.calcPx false z = .ok d → ∃ C : ℝ → ℝ, (∀ t, g.CostAt (along g.xyza d t) (C t)) ∧ HasDerivAt C 0 0 := by
  obtain ⟨grad, q1, q2, q3⟩ := C87_gradient h hg hsm hf
  constructor
  · rintro ⟨f', grad', b1, b2, b3⟩ z d hz hd
    rw [hf] at b1; cases b1
    have b2' : g.getJPTx f = .ok grad' := b2
    rw [q1] at b2'; cases b2'
    obtain ⟨d', c1, _, C, c2, _, c3⟩ := q3 z hz
    rw [hd] at c1; cases c1
    refine ⟨C, c2, ?_⟩
    rwa [dotp_zero_right z grad b3, mul_zero] at c3
  · intro hall
    refine ⟨f, grad, hf, q1, ?_⟩
    obtain ⟨d, c1, _, C, c2, _, c3⟩ := q3 grad q2
    obtain ⟨C', d2, d3⟩ := hall grad d q2 c1
    have hCC : C' = C := by
      funext t
      obtain ⟨f1, k1, k2⟩ := c2 t
      obtain ⟨f2, l1, l2⟩ := d2 t
      rw [k1] at l1; cases l1
      rw [k2, l2]
    rw [hCC] at d3
    have h0 := c3.unique d3
    have h1 : dotp grad grad = 0 := by linarith
    intro e he
    obtain ⟨i, hi, rfl⟩ := List.getElem_of_mem he
    rw [dotp_range (n := grad.length) rfl rfl] at h1
    have := (Finset.sum_eq_zero_iff_of_nonneg (fun r _ => mul_self_nonneg _)).1 h1 i (Finset.mem_range.2 hi)
    have := mul_self_eq_zero.1 this
    simpa [List.getD, hi] using this

theorem StepTo.dlen {ms : Evaluable ℝ δ} {labels clabels : List String} {m : Nat} (h : ms.SolverReady labels clabels m) {g : GN ℝ δ} (hg : g.Solves ms) {z d : List ℝ}
    (hz : z.length = g.xyza.length) (hd : g.calcPx false z = .ok d) : d.length = g.xyza.length := by
  obtain ⟨N, n, hset⟩ := hg.setup h
  obtain ⟨s1, s2, s3⟩ := hset.sizes
  obtain ⟨d', q1, q2⟩ := calcPx_total hset false (x := z) (by rw [hz, hg.xyza, s1, s2])
  rw [hd] at q1; cases q1
  rw [q2, hz]

/-- **C87, downhill.** Where the models are smooth and have the derivatives they declare, a step which goes downhill by the solver's own numbers does: every point of it near its
beginning has a smaller cost. -/
theorem C87_downhill {ms : Evaluable ℝ δ} {labels clabels : List String} {m : Nat} (h : ms.SolverReady labels clabels m) {g : GN ℝ δ} (hg : g.Solves ms) {x y : List ℝ}
    (hx : x.length = g.xyza.length) (hsm : (g.move x).Smooth ms labels clabels) (hd : g.Descends x y) :
    ∃ q, g.CostAt x q ∧ ∃ ε > 0, ∀ t, 0 < t → t < ε → ∃ q', g.CostAt (segment x y t) q' ∧ q' < q := by
  obtain ⟨f, z, u, ⟨d, s1, s2, s3, s4, s5, s6⟩, hneg, _⟩ := hd
  have hg' : (g.move x).Solves ms := ⟨hg.norm, hx.trans hg.xyza, hg.rows, hg.cols⟩
  have hdl : d.length = x.length := StepTo.dlen h hg' s5 s2
  have hgm : (g.move x).calcF (g.move x).xyza = .ok f := s1
  obtain ⟨grad, q1, q2, q3⟩ := C87_gradient h hg' hsm hgm
  obtain ⟨d', c1, _, C, c2, c0, c3⟩ := q3 z s5
  have c1' : g.calcPx false z = .ok d' := c1
  rw [s2] at c1'; cases c1'
  have hfl : f.length = (g.move x).hd.mu.values.length + (g.move x).hd.mu.ks.length := by
    obtain ⟨u', _, b1, _, b3, _⟩ := C28_adjoint h hg' z (List.replicate ((g.move x).hd.mu.values.length + (g.move x).hd.mu.ks.length) 0) (by rw [s5, ← hg'.xyza]; rfl) (by simp)
    rw [s4] at b1; cases b1
    rw [← s6, b3]; simp
  obtain ⟨u', grad', b1, b2, b3, b4, b5⟩ := C28_adjoint h hg' z f (by rw [s5, ← hg'.xyza]; rfl) hfl
  rw [s4] at b1; cases b1
  rw [q1] at b2; cases b2
  rw [← b5, dotp_comm] at c3
  refine ⟨dotp f f, ⟨f, s1, rfl⟩, ?_⟩
  have hlim := hasDerivAt_iff_tendsto_slope_zero.1 c3
  have hev := hlim.eventually (gt_mem_nhds (show 2 * dotp f u < 0 by linarith))
  rw [eventually_nhdsWithin_iff, Metric.eventually_nhds_iff] at hev
  obtain ⟨ε, hε, hev⟩ := hev
  refine ⟨ε, hε, ?_⟩
  intro t ht hlt
  refine ⟨C t, by rw [along_segment s3 hdl]; exact c2 t, ?_⟩
  have := hev (y := t) (by rw [Real.dist_eq, sub_zero, abs_of_pos ht]; exact hlt) (by simpa using ht.ne')
  rw [zero_add, smul_eq_mul, c0] at this
  have h1 : t⁻¹ * (C t - dotp f f) < 0 := this
  have h2 : 0 < t⁻¹ := inv_pos.2 ht
  nlinarith

/-- **C87, linear models.** If the models are smooth everywhere and the Jacobian is everywhere the same, the residuals are a linear function of the step. -/
theorem C87_linear_models {ms : Evaluable ℝ δ} {labels clabels : List String} {m : Nat} (h : ms.SolverReady labels clabels m) {g : GN ℝ δ} (hg : g.Solves ms)
    (hsm : ∀ x, x.length = g.xyza.length → (g.move x).Smooth ms labels clabels)
    (hJ : ∀ x z, x.length = g.xyza.length → z.length = g.xyza.length → (g.move x).getJPx z = g.getJPx z) {x : List ℝ} (hx : x.length = g.xyza.length) : g.LinearAt x := by
  intro y f z u ⟨d, s1, s2, s3, s4, s5, s6⟩
  have hz : z.length = g.xyza.length := by rw [s5, hx]
  have hdl : d.length = x.length := by rw [hx]; exact StepTo.dlen h hg hz s2
  have hu : g.getJPx z = .ok u := by rw [← hJ x z hx hz]; exact s4
  have hg' : ∀ p : List ℝ, p.length = x.length → (g.move p).Solves ms := fun p hp => ⟨hg.norm, (hp.trans hx).trans hg.xyza, hg.rows, hg.cols⟩
  have key : ∀ p : List ℝ, p.length = x.length → ∃ F : ℝ → List ℝ, (∀ t, g.calcF (along p d t) = .ok (F t) ∧ (F t).length = u.length) ∧
      ∀ r, r < u.length → HasDerivAt (fun t => (F t).getD r 0) (u.getD r 0) 0 := by
    intro p hp
    obtain ⟨w, u', a1, a2, _, _, F, a5, a6⟩ := C30_jacobian h (hg' p hp) (hsm p (hp.trans hx)) z (by rw [hz, hg.xyza]; rfl)
    have a1' : g.calcPx false z = .ok w := a1
    rw [s2] at a1'; cases a1'
    rw [hJ p z (hp.trans hx) hz, hu] at a2; cases a2
    exact ⟨F, a5, a6⟩
  obtain ⟨F, f1, _⟩ := key x rfl
  have hder : ∀ r, r < u.length → ∀ t, HasDerivAt (fun t => (F t).getD r 0) (u.getD r 0) t := by
    intro r hr t
    obtain ⟨G, g1, g2⟩ := key (along x d t) (along_len hdl t)
    have hGF : ∀ s, G s = F (t + s) := by
      intro s
      have := (g1 s).1
      rw [along_along hdl, (f1 (t + s)).1] at this
      exact (Except.ok.inj this).symm
    have h2 := g2 r hr
    simp only [hGF] at h2
    have h3 : HasDerivAt (fun s => (F (s + t)).getD r 0) (u.getD r 0) (0 : ℝ) := by
      simpa only [add_comm t] using h2
    have h4 := HasDerivAt.comp_add_const (f := fun s => (F (s + t)).getD r 0) t (-t) (by simpa using h3)
    simpa using h4
  have hlin : ∀ r, r < u.length → (F 1).getD r 0 = (F 0).getD r 0 + u.getD r 0 := by
    intro r hr
    have hd : ∀ t, HasDerivAt (fun t => (F t).getD r 0 - t * u.getD r 0) 0 t := by
      intro t
      have := (hder r hr t).sub ((hasDerivAt_id t).mul_const (u.getD r 0))
      rw [one_mul, sub_self] at this
      exact this
    have := is_const_of_deriv_eq_zero (f := fun t => (F t).getD r 0 - t * u.getD r 0) (fun t => (hd t).differentiableAt) (fun t => (hd t).deriv) 1 0
    simp only [one_mul, zero_mul, sub_zero] at this
    linarith
  have e0 : F 0 = f := by
    have := (f1 0).1
    rw [along_at_zero hdl, s1] at this
    exact (Except.ok.inj this).symm
  have e1 := (f1 1).1
  rw [along_one s3 hdl] at e1
  rw [e1]
  congr 1
  apply List.ext_getElem
  · simp [(f1 1).2, s6]
  · intro i i1 i2
    have j1 : i < u.length := by rw [← (f1 1).2]; exact i1
    have j2 : i < f.length := by omega
    have := hlin i j1
    rw [e0] at this
    simpa [List.getD, i1, j1, j2] using this

end Verif
