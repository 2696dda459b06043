import Verif.Props.Harmonise
/-
C82: what a harmonisation returns, for match-ups opened together with their sensor data.
-/
set_option autoImplicit false
namespace Verif
variable {α δ : Type}

/-! ### Starting from other parameters -/

theorem SolverReady.setParams {ms : Evaluable α δ} {labels clabels : List String} {m : Nat} (h : ms.SolverReady labels clabels m) {a : List α}
    (ha : a.length = ms.a.length) : Evaluable.SolverReady { ms with a := a } labels clabels m :=
  ⟨h.wf, h.tables, h.orig, h.pairs, h.blocks, ⟨h.parameters.1, by rw [ha]; exact h.parameters.2⟩, h.constants, h.covariates, h.distinct, h.sides⟩

theorem solver_solves [Field α] {o : HarmRoutines α δ} {ms : Evaluable α δ} {labels clabels : List String} {m : Nat} (h : ms.SolverReady labels clabels m)
    {V S : List (List α)} {g : GN α δ} (hg : ms.solver o V none = .ok g) (hS : o.pc.chol V = .ok S) (hsq : IsSquare S ms.a.length) :
    g.Solves ms ∧ g.S = S ∧ g.xyza = g.hd.mu.values ++ ms.a ∧ g.hd.a = ms.a := by
  unfold Evaluable.solver at hg
  obtain ⟨hd, h1, h2⟩ := bind_ok.1 hg
  obtain ⟨S', h3, h4⟩ := bind_ok.1 h2
  rw [hS] at h3; cases h3
  rw [pure_ok] at h4
  subst h4
  have ha : hd.a = ms.a := by
    unfold MatchUpS.normalise at h1
    obtain ⟨n1, _, h1⟩ := bind_ok.1 h1
    rw [pure_ok] at h1
    rw [← h1]
  refine ⟨⟨h1, by simp, ?_, ?_⟩, rfl, by simp [ha], ha⟩
  · show S.length = hd.a.length; rw [ha]; exact hsq.1
  · show ∀ r ∈ S, r.length = hd.a.length; rw [ha]; exact hsq.2

theorem run_parts [Field α] [LinearOrder α] {g : GN α δ} {lsmr : LsmrObject α δ} {minres : GN α δ → List α → Py (List α)} {tol : GNTol α} {rc : Bool}
    {res : GNResult α} (h : g.run lsmr minres tol rc = .ok res) :
    ∃ N_mu N_var, pyLast g.hd.mu.idx.cNm = .ok N_mu ∧ pyLast g.hd.mu.idx.idx = .ok N_var ∧ res.dof = (N_var : Int) - N_mu - g.hd.a.length ∧
      GN.runCovariance { g with xyza := res.state.xyza } minres rc (res.state.xyza.drop N_var).length = .ok res.covariance := by
  unfold GN.run at h
  obtain ⟨N_mu, h1, h⟩ := bind_ok.1 h
  obtain ⟨N_var, h2, h⟩ := bind_ok.1 h
  obtain ⟨r0, h3, h⟩ := bind_ok.1 h
  obtain ⟨st, h4, h⟩ := bind_ok.1 h
  obtain ⟨V, h5, h⟩ := bind_ok.1 h
  obtain ⟨rv, h6, h⟩ := bind_ok.1 h
  obtain ⟨n_uS, h7, h⟩ := bind_ok.1 h
  obtain ⟨sens, h8, h⟩ := bind_ok.1 h
  obtain ⟨cost, h9, h⟩ := bind_ok.1 h
  rw [pure_ok] at h
  subst h
  exact ⟨N_mu, N_var, h1, h2, rfl, h5⟩

/-- The sum of squares of the differences of two vectors. -/
def distSq [Field α] (a b : List α) : α := (List.zipWith (fun x y => (x - y) * (x - y)) a b).sum

theorem dotp_append [Field α] {a b c d : List α} (h : a.length = c.length) : dotp (a ++ b) (c ++ d) = dotp a c + dotp b d := by
  unfold dotp
  rw [List.zipWith_append h, List.sum_append]

theorem dotp_sub [Field α] (a b : List α) : dotp (List.zipWith (· - ·) a b) (List.zipWith (· - ·) a b) = distSq a b := by
  unfold dotp distSq
  congr 1
  induction a generalizing b with
  | nil => simp
  | cons x a ih => cases b with
    | nil => simp
    | cons y b => simp [ih b]

/-- **C82 (partial), what is returned.** A harmonisation of match-ups of the right sizes, with a preconditioner (computed or read) of the right sizes: the parameters
are those of the Gauss-Newton iterations started at the data and at the parameters of the preconditioner, labelled with the sensors of the parameters; with `est` the
final estimate of data and parameters and `k` its K,
the residuals are `k` minus the measured K, and the estimate of the data minus the data; the cost is the sum of squares of the normalised changes of the data and of the
K residuals divided by their uncertainties; the covariance is the one computed at the final estimate, unless the solver is to be saved, in which case it is zero and the
final estimate is saved. -/
theorem C82_result_partial [Field α] [LinearOrder α] {o : HarmRoutines α δ} {ms : Evaluable α δ} {labels clabels : List String} {m : Nat}
    (h : ms.SolverReady labels clabels m) (h2 : ∀ nm, ms.normalise = .ok nm → 2 ≤ nm.mu.values.length + ms.a.length) {pc : Option (Dir α × List (List Char))} {sp : Option (Dir α × List Char)} {sg : Bool}
    {r : HarmResult α} {sv : Option (GNSaved α)} (hr : harmoniseEIV o ms pc sp none sg = .ok (r, sv))
    (hpc : ∀ a V, ms.preconditioner o pc sp = .ok (a, V) → a.length = ms.a.length ∧ ∀ S, o.pc.chol V = .ok S → IsSquare S ms.a.length) :
    ∃ a V S nm log w z est k, ms.preconditioner o pc sp = .ok (a, V) ∧ o.pc.chol V = .ok S ∧ ms.normalise = .ok nm ∧
      (let g : GN α δ := { hd := { nm with a := a }, xyza := nm.mu.values ++ a, S := S }
       let last : GN α δ := { g with xyza := z ++ r.parameter }
       g.Steps o.lsmr o.tol (nm.mu.values ++ a, none) log (z ++ r.parameter, w) ∧
       (g.estimate (z ++ r.parameter) nm.mu.values.length nm.mu.ks.length).denormalise = .ok est ∧
       (if sg then r.covariance = some (List.replicate ms.a.length (List.replicate ms.a.length 0)) ∧ sv = some last.save
        else (∃ C, last.covariance o.minres = .ok C ∧ r.covariance = some C) ∧ sv = none)) ∧
      z.length = nm.mu.values.length ∧ 1 ≤ log.length ∧ log.length ≤ nm.mu.values.length ∧
      (∀ (i : Nat) (line : GNLogLine α), log[i]? = some line → i + 1 < log.length → ¬ line.Met) ∧
      (log.length = nm.mu.values.length ∨ ∃ line, log.getLast? = some line ∧ line.Met) ∧
      ms.mu.idx.parameter_sensor = some r.sensors ∧ r.sensors.length = r.parameter.length ∧ r.parameter.length = ms.a.length ∧ r.idx = ms.mu.idx ∧
      est.a = r.parameter ∧ evaluateK est (.num 0) = .ok k ∧ k.length = ms.mu.ks.length ∧
      ((∀ u ∈ ms.mu.unck, ∀ x ∈ u, x ≠ 0) → r.ks = some (List.zipWith (· - ·) k ms.mu.ks)) ∧
      (ms.mu.Normalisable → r.values = some (List.zipWith (· - ·) est.mu.values ms.mu.values)) ∧
      r.cost = .num (distSq z nm.mu.values + distSq (List.zipWith (· / ·) k ms.mu.unck.flatten) nm.mu.ks) ∧
      r.dof = .num (((nm.mu.values.length : Int) - ms.mu.ks.length - ms.a.length : Int) : α) ∧ r.pValue = .num 0 := by
  unfold harmoniseEIV at hr
  obtain ⟨⟨a, V⟩, e1, hr⟩ := bind_ok.1 hr
  obtain ⟨g, e2, hr⟩ := bind_ok.1 hr
  obtain ⟨sensors, e3, hr⟩ := bind_ok.1 hr
  obtain ⟨res, e4, hr⟩ := bind_ok.1 hr
  rw [pure_ok, Prod.mk.injEq] at hr
  obtain ⟨hr1, hr2⟩ := hr
  obtain ⟨ha, hS⟩ := hpc a V e1
  have h' := SolverReady.setParams h ha
  obtain ⟨S, hS1⟩ : ∃ S, o.pc.chol V = .ok S := by
    unfold Evaluable.solver at e2
    obtain ⟨hd, _, e2⟩ := bind_ok.1 e2
    obtain ⟨S, e, _⟩ := bind_ok.1 e2
    exact ⟨S, e⟩
  have hsq := hS S hS1
  obtain ⟨hg, hgS, hgx, hga⟩ := solver_solves h' e2 hS1 (by rw [ha]; exact hsq)
  obtain ⟨nm, n1, n2⟩ := normalise_ok hg.norm
  obtain ⟨N, n, hs⟩ := hg.setup h'
  obtain ⟨s1, s2, s3⟩ := hs.sizes
  have hgm : g.hd.mu = nm := by rw [n2]
  have hnorm : ms.normalise = .ok { ms with mu := nm } := bind_ok.2 ⟨nm, n1, rfl⟩
  have hx2 : 2 ≤ g.xyza.length := by
    have := h2 _ hnorm
    rw [hgx, List.length_append, hgm]; show 2 ≤ _ + a.length; rw [ha]; exact this
  obtain ⟨N_var, f, q1, q2, q3, q4, q5, q6, q7, q8, q9, q10, q11⟩ := C32_loop e4
  obtain ⟨est, back, k, p1, p2, p3, p4, p5, p6, p7, p8, p9⟩ := C58_residuals h' hg hx2 e4
  obtain ⟨N_mu, N_var', t1, t2, t3, t4⟩ := run_parts e4
  have hNv : pyLast g.hd.mu.idx.idx = .ok g.hd.mu.values.length := by rw [s1]; exact hs.var_eq
  rw [hNv] at t2; cases t2
  have hNv' : N_var = g.hd.mu.values.length := by
    unfold pyLast at hNv
    have := pyGet_ok.1 hNv
    rw [← List.getLast?_eq_getElem?, q1] at this
    exact Option.some.inj this
  subst hNv'
  have hlab : labels.length = a.length := h'.parameters.2
  have hfin : res.state.xyza.length = g.xyza.length := q2.length (by show g.xyza.length ≠ 1; omega)
  have hxl : res.state.xyza.length = N.sum + n + labels.length := by rw [hfin, hs.xlen]
  have hsplit : res.state.xyza = res.state.xyza.take g.hd.mu.values.length ++ res.a := by rw [q9, List.take_append_drop]
  have hra : res.a.length = ms.a.length := by rw [q9, List.length_drop, hxl, s1, hlab, ha]; omega
  have hzl : (res.state.xyza.take g.hd.mu.values.length).length = g.hd.mu.values.length := by rw [List.length_take]; omega
  have hgeq : g = { hd := { ({ ms with mu := nm } : Evaluable α δ) with a := a }, xyza := nm.values ++ a, S := S } := by
    obtain ⟨hd0, x0, S0⟩ := g
    simp only at n2 hgx hgS hgm
    rw [hgx, hgm, hgS, n2]
  have hidx : g.hd.mu.original_idx = ms.mu.idx := by rw [solver_original e2]; exact h.orig
  have hpar : g.hd.mu.idx.parameter_sensor = some labels := by rw [hs.facts.idx]; exact h.parameters.1
  rw [hpar] at e3
  have e3 : sensors = labels := (Except.ok.inj e3).symm
  obtain ⟨est', k', c1, c2, c3, c4⟩ := calcF_parts hs hxl q10
  rw [← s1] at c1 c4
  have hNm : g.hd.mu.ks.length = ms.mu.idx.Nm.sum := s3
  rw [← hNm, p1] at c1
  cases c1
  rw [p3] at c2; cases c2
  have hesta : est.a = res.a := by
    unfold MatchUpS.denormalise at p1
    obtain ⟨m', _, p1⟩ := bind_ok.1 p1
    rw [pure_ok] at p1
    rw [← p1, q9]
    rfl
  have hcost : res.cost = distSq (res.state.xyza.take g.hd.mu.values.length) nm.values + distSq (List.zipWith (· / ·) k ms.mu.unck.flatten) nm.ks := by
    rw [q11, c4, dotp_append (by rfl), dotp_sub, dotp_sub, List.take_length, hgm]
  have hmu : N_mu = ms.mu.ks.length := by
    rw [hs.mu_eq] at t1
    rw [← Except.ok.inj t1, ← h.wf.ks]
  subst hr1
  refine ⟨a, V, S, { ms with mu := nm }, res.state.log, res.state.solution, res.state.xyza.take g.hd.mu.values.length, est, k, e1, hS1, hnorm,
    ⟨?_, ?_, ?_⟩, ?_, ?_, ?_, q6, ?_, ?_, ?_, hra, hidx, hesta, p3, p6, ?_, ?_, ?_, ?_, rfl⟩
  · show GN.Steps _ _ _ _ _ (res.state.xyza.take g.hd.mu.values.length ++ res.a, _)
    rw [← hsplit, ← hgeq]
    rw [hgx, hgm] at q2
    exact q2
  · show (GN.estimate _ (res.state.xyza.take g.hd.mu.values.length ++ res.a) nm.values.length nm.ks.length).denormalise = _
    rw [← hsplit, ← hgeq, ← hgm]
    exact p1
  · have hl : ({ ({ hd := { ({ ms with mu := nm } : Evaluable α δ) with a := a }, xyza := nm.values ++ a, S := S } : GN α δ) with
        xyza := res.state.xyza.take g.hd.mu.values.length ++ res.a } : GN α δ) = { g with xyza := res.state.xyza } := by rw [← hsplit, ← hgeq]
    cases sg with
    | true =>
      simp only [if_true]
      unfold GN.runCovariance at t4
      simp only [Bool.not_true, Bool.false_eq_true, if_false] at t4
      refine ⟨?_, ?_⟩
      · show some res.covariance = _
        rw [← Except.ok.inj t4, ← q9, hra]
      · rw [← hr2]
        simp only [if_true]
        refine congrArg (fun x => some (GN.save x)) ?_
        exact hl.symm
    | false =>
      simp only [Bool.false_eq_true, if_false]
      unfold GN.runCovariance at t4
      simp only [Bool.not_false, if_true] at t4
      refine ⟨⟨res.covariance, ?_, rfl⟩, ?_⟩
      · refine Eq.trans (congrArg (fun x => GN.covariance x o.minres) ?_) t4
        exact hl
      · rw [← hr2]; rfl
  · rw [hzl, hgm]
  · rw [← q3]; exact q4
  · show _ ≤ nm.values.length
    rw [← q3, ← hgm]; exact q5
  · cases hcv : res.state.conv with
    | true => exact .inr (q7.1 hcv)
    | false => left; show _ = nm.values.length; rw [← q3, ← hgm]; exact q8 hcv
  · show _ = some sensors
    rw [e3]; exact h.parameters.1
  · show sensors.length = res.a.length
    rw [e3, hra, hlab, ha]
  · intro h0
    show some res.ks_res = _
    rw [p8 h0]
  · intro h0
    show some res.values_res = _
    rw [p7, p9 h0]
  · show AttVal.num res.cost = _
    rw [hcost]
  · show AttVal.num ((res.dof : Int) : α) = _
    rw [t3, hga, hmu, hgm, ← ha]

/-- **C82 (partial), it returns.** Whenever the preconditioner returns parameters and a covariance matrix with a Cholesky factor of the right sizes, the match-ups can be
normalised, there is at least one variable, and the two linear solvers return vectors of the right sizes, the harmonisation returns. -/
theorem C82_returns_partial [Field α] [LinearOrder α] {o : HarmRoutines α δ} {ms : Evaluable α δ} {labels clabels : List String} {m : Nat}
    (h : ms.SolverReady labels clabels m) (hnm : ms.mu.Named) {pc : Option (Dir α × List (List Char))} {sp : Option (Dir α × List Char)} {a : List α}
    {V S : List (List α)} (hpc : ms.preconditioner o pc sp = .ok (a, V)) (ha : a.length = ms.a.length) (hS : o.pc.chol V = .ok S) (hsq : IsSquare S ms.a.length)
    {nm : Evaluable α δ} (hn : ms.normalise = .ok nm) (hpos : 1 ≤ nm.mu.values.length)
    (hl : GN.LsmrSized { hd := { nm with a := a }, xyza := nm.mu.values ++ a, S := S } o.lsmr (nm.mu.values.length + nm.mu.ks.length) (nm.mu.values.length + ms.a.length))
    (hm : GN.SolverSized { hd := { nm with a := a }, xyza := nm.mu.values ++ a, S := S } o.minres (nm.mu.values.length + ms.a.length)
      (nm.mu.values.length + ms.a.length)) (sg : Bool) :
    ∃ r, harmoniseEIV o ms pc sp none sg = .ok r := by
  have h' := SolverReady.setParams h ha
  obtain ⟨m1, n1, n2⟩ := normalise_ok hn
  have hn' : MatchUpS.normalise { ms with a := a } = .ok { nm with a := a } := by
    rw [n2]
    exact bind_ok.2 ⟨m1, n1, rfl⟩
  have e2 : Evaluable.solver o { ms with a := a } V none = .ok { hd := { nm with a := a }, xyza := nm.mu.values ++ a, S := S } :=
    bind_ok.2 ⟨_, hn', bind_ok.2 ⟨S, hS, rfl⟩⟩
  obtain ⟨hg, _, _, hga⟩ := solver_solves h' e2 hS (by show IsSquare S a.length; rw [ha]; exact hsq)
  obtain ⟨N, n, hs⟩ := hg.setup h'
  have hpar : nm.mu.idx.parameter_sensor = some labels := by
    have := hs.facts.idx
    show _ = _
    have h3 : nm.mu.idx = _ := this
    rw [h3]; exact h.parameters.1
  obtain ⟨res, hres⟩ := C57_run_returns h' hnm hg hpos (by show GN.LsmrSized _ _ _ (_ + a.length); rw [ha]; exact hl)
    (by show GN.SolverSized _ _ (_ + a.length) (_ + a.length); rw [ha]; exact hm) o.tol (!sg)
  exact ⟨_, bind_ok.2 ⟨(a, V), hpc, bind_ok.2 ⟨_, e2, bind_ok.2 ⟨labels, by show needKey nm.mu.idx.parameter_sensor = _; rw [hpar]; rfl, bind_ok.2 ⟨res, hres, rfl⟩⟩⟩⟩⟩

end Verif
