import Verif.Props.HarmoniseRun
import Verif.Props.Sample
/-
C82: the preconditioner computed at the beginning of a harmonisation.
-/
set_option autoImplicit false
namespace Verif
variable {α δ : Type}

/-! ### The preconditioner does not look at the original index tables -/

/-- The match-ups with other original index tables. -/
def Evaluable.reorig (ms : Evaluable α δ) (x : Idx) : Evaluable α δ := { ms with mu := { ms.mu with original_idx := x } }

/-- So for the object of the preconditioner. -/
def PC.reorig (p : PC α δ) (x : Idx) : PC α δ := { p with hd := p.hd.reorig x }

theorem PC.reorig_calcVK [Field α] (p : PC α δ) (x : Idx) : (p.reorig x).calcVK = p.calcVK := rfl

theorem PC.reorig_setParams (p : PC α δ) (x : Idx) (a : List α) : (p.reorig x).setParams a = (do let q ← p.setParams a; pure (q.reorig x)) := by
  unfold PC.setParams
  show (do let N_var ← pyLast p.hd.mu.idx.idx; _) = _
  cases pyLast p.hd.mu.idx.idx with
  | error e => rfl
  | ok v =>
    show (do let y ← setSlice p.xyza v (v + p.hd.a.length) a; _) = (do let q ← (do let y ← setSlice p.xyza v (v + p.hd.a.length) a; _); _)
    cases setSlice p.xyza v (v + p.hd.a.length) a with
    | error e => rfl
    | ok y => rfl

theorem PC.reorig_calcFJ [Field α] (p : PC α δ) (x : Idx) (a : List α) : (p.reorig x).calcFJ a = p.calcFJ a := by
  unfold PC.calcFJ
  rw [PC.reorig_setParams]
  rw [show (p.reorig x).hd.mu.idx = p.hd.mu.idx from rfl]
  cases pyLast p.hd.mu.idx.cNm with
  | error e => rfl
  | ok v =>
    cases pyLast p.hd.mu.idx.n_cov with
    | error e => rfl
    | ok w =>
      cases p.setParams a with
      | error e => rfl
      | ok q => rfl

theorem PC.reorig_getF [Field α] (p : PC α δ) (x : Idx) (solve : List α → Py (List α)) : (p.reorig x).getF solve = p.getF solve := by
  funext a
  unfold PC.getF
  rw [PC.reorig_calcFJ]
  rfl

theorem PC.reorig_getJa [Field α] (p : PC α δ) (x : Idx) (solve : List α → Py (List α)) : (p.reorig x).getJa solve = p.getJa solve := by
  funext a
  unfold PC.getJa
  rw [PC.reorig_calcFJ]

/-- The variables of the loop with other original index tables. -/
def PCLoop.reorig (st : PCLoop α δ) (x : Idx) : PCLoop α δ := { st with pc := st.pc.reorig x }

theorem PC.reorig_refine [Field α] [LinearOrder α] (o : PCRoutines α) (tol : α) (st : PCLoop α δ) (x : Idx) :
    PC.refine o tol (st.reorig x) = (do let s ← PC.refine o tol st; pure (s.reorig x)) := by
  unfold PC.refine
  have e0 : (st.reorig x).pc = st.pc.reorig x := rfl
  rw [e0]
  have e1 : (st.pc.reorig x).calcLK o.chol = st.pc.calcLK o.chol := rfl
  rw [e1]
  cases st.pc.calcLK o.chol with
  | error e => rfl
  | ok L =>
    simp only [bind, Except.bind]
    rw [PC.reorig_getF, PC.reorig_getJa]
    have e2 : (st.reorig x).a = st.a := rfl
    rw [e2]
    cases o.lsq (st.pc.getF (o.solve L)) st.a (st.pc.getJa (o.solve L)) tol with
    | error e => rfl
    | ok r =>
      simp only [PC.reorig_setParams, bind, Except.bind]
      cases st.pc.setParams r.2 with
      | error e => rfl
      | ok q =>
        simp only [pure, Except.pure]
        cases npZip (· - ·) r.1 st.a with
        | error e => rfl
        | ok d =>
          simp only
          cases npDot d d with
          | error e => rfl
          | ok dd =>
            simp only
            cases o.sqrt dd with
            | error e => rfl
            | ok v => rfl

theorem PC.reorig_refineLoop [Field α] [LinearOrder α] (o : PCRoutines α) (tol : α) (x : Idx) : ∀ (n : Nat) (st : PCLoop α δ),
    PC.refineLoop o tol n (st.reorig x) = (do let s ← PC.refineLoop o tol n st; pure (s.reorig x))
  | 0, _ => rfl
  | n + 1, st => by
    unfold PC.refineLoop
    rw [show (st.reorig x).conv = st.conv from rfl]
    cases st.conv with
    | true => rfl
    | false =>
      simp only [Bool.false_eq_true, if_false, PC.reorig_refine]
      cases PC.refine o tol st with
      | error e => rfl
      | ok s => exact PC.reorig_refineLoop o tol x n s

theorem PC.reorig_run [Field α] [LinearOrder α] (o : PCRoutines α) (tol : α) (x : Idx) (p : PC α δ) :
    (p.reorig x).run o tol = (do let r ← p.run o tol; pure (r.1, r.2.1, r.2.2.reorig x)) := by
  unfold PC.run
  have := PC.reorig_refineLoop o tol x (pcMaxIter (p.hd.mu.values.length + p.hd.a.length)) { pc := p, LK := none, a := p.hd.a, conv := false, niter := 0 }
  have e : PC.refineLoop o tol (pcMaxIter ((p.reorig x).hd.mu.values.length + (p.reorig x).hd.a.length))
      { pc := p.reorig x, LK := none, a := (p.reorig x).hd.a, conv := false, niter := 0 } = _ := this
  rw [e]
  cases PC.refineLoop o tol (pcMaxIter (p.hd.mu.values.length + p.hd.a.length)) { pc := p, LK := none, a := p.hd.a, conv := false, niter := 0 } with
  | error e => rfl
  | ok s =>
    simp only [bind, Except.bind, pure, Except.pure]
    rw [show (s.reorig x).LK = s.LK from rfl, show (s.reorig x).pc = s.pc.reorig x from rfl, show (s.reorig x).a = s.a from rfl]
    cases needLocal s.LK with
    | error e => rfl
    | ok L =>
      simp only [PC.reorig_getJa, PC.reorig_setParams]
      cases s.pc.getJa (o.solve L) s.a with
      | error e => rfl
      | ok J =>
        simp only
        rw [show (p.reorig x).hd.a = p.hd.a from rfl]
        cases PC.spread o p.hd.a.length J with
        | error e => rfl
        | ok V =>
          simp only [bind, Except.bind, pure, Except.pure]
          cases s.pc.setParams s.a with
          | error e => rfl
          | ok q => rfl

theorem reorig_normalise [Field α] (ms : Evaluable α δ) (x : Idx) :
    (ms.reorig x).normalise = (do let nm ← ms.normalise; pure (Evaluable.reorig nm x)) := by
  unfold MatchUpS.normalise
  have : transformRun (ms.reorig x).mu = (do let nm ← transformRun ms.mu; pure { nm with original_idx := x }) := by
    unfold transformRun
    simp only [bind_assoc, pure_bind]
    rfl
  rw [this]
  cases transformRun ms.mu with
  | error e => rfl
  | ok nm => rfl

/-! ### The sample is as ready for a solver as the data -/

theorem sample2ind_labels [Zero α] {rnd : List Nat → Nat → List Nat} {rms : List α → Nat → α} {z : δ} {mu : MatchUp α δ} {sf : ℚ} {nmax : Nat}
    {r : SampledMatchUp α δ} (h : sample2ind rnd rms z mu sf nmax = .ok r) :
    r.idx.parameter_sensor = mu.idx.parameter_sensor ∧ r.idx.constant_sensor = mu.idx.constant_sensor := by
  unfold sample2ind at h
  obtain ⟨_, _, h⟩ := bind_ok.1 h
  obtain ⟨_, _, h⟩ := bind_ok.1 h
  obtain ⟨_, _, h⟩ := bind_ok.1 h
  obtain ⟨_, _, h⟩ := bind_ok.1 h
  obtain ⟨_, _, h⟩ := bind_ok.1 h
  obtain ⟨_, _, h⟩ := bind_ok.1 h
  obtain ⟨_, _, h⟩ := bind_ok.1 h
  obtain ⟨_, _, h⟩ := bind_ok.1 h
  obtain ⟨_, _, h⟩ := bind_ok.1 h
  obtain ⟨_, _, h⟩ := bind_ok.1 h
  obtain ⟨_, _, h⟩ := bind_ok.1 h
  obtain ⟨_, _, h⟩ := bind_ok.1 h
  obtain ⟨_, _, h⟩ := bind_ok.1 h
  obtain ⟨_, _, h⟩ := bind_ok.1 h
  rw [pure_ok] at h
  rw [← h]
  exact ⟨rfl, rfl⟩

theorem sampled_ready [Zero α] {rnd : List Nat → Nat → List Nat} {rms : List α → Nat → α} {z : δ} {ms : Evaluable α δ} {sf : ℚ} {nmax : Nat}
    {labels clabels : List String} {m : Nat} (h : ms.SolverReady labels clabels m) {s : SampledMatchUp α δ} (hs : sample2ind rnd rms z ms.mu sf nmax = .ok s) :
    (Evaluable.reorig { ms with mu := s.toMatchUp } s.idx).SolverReady labels clabels m ∧ (∀ u ∈ s.toMatchUp.unc, u.unc.typeID = 1) := by
  obtain ⟨c1, c2, c3, c4, c5, c6, c7, c8, c9, c10, c11, c12⟩ := C20_sample_structure _ _ _ _ _ _ _ h.wf hs
  obtain ⟨S, -, htab, -⟩ := sample2ind_spec h.wf hs
  obtain ⟨l1, l2⟩ := sample2ind_labels hs
  have c13 : s.idx.sensor_ms = ms.mu.idx.sensor_ms := htab.same.2.2.2.2.2
  have hty : ∀ u ∈ s.toMatchUp.unc, u.unc.typeID = 1 := by
    intro u hu
    obtain ⟨v, _, rfl⟩ := List.mem_map.1 hu
    rfl
  have hside : ∀ i k : Nat, ms.SideReady labels clabels m i k → (Evaluable.reorig { ms with mu := s.toMatchUp } s.idx).SideReady labels clabels m i k := by
    rintro i k ⟨name, q, f, B, e1, e2, e3, e4, e5, e6, e7, e8⟩
    refine ⟨name, q, f, B, ?_, ?_, e3, e4, e5, e6, ?_, ?_⟩
    · show s.idx.sensors[k]? = _; rw [c5]; exact e1
    · show s.idx.sensor_ms[k]? = _; rw [c13]; exact e2
    · rw [← e7]
      show s.idx.covNumbers k i = _
      unfold Idx.covNumbers Idx.blocks
      rw [c1, c2, c3]
    · rcases e8 with e8 | ⟨e8, _⟩
      · exact .inl e8
      · refine .inr ⟨e8, ?_⟩
        intro b c u _ hu
        exact .inl (hty u (List.mem_of_getElem? hu))
  refine ⟨⟨⟨c6, c7, ?_, c9, c10⟩, ?_, rfl, ?_, ?_, ?_, ?_, ?_, ?_, ?_⟩, hty⟩
  · show (s.unc.map _).length = s.idx.n_mu.length
    rw [List.length_map, ← c6.len, ← c8, List.length_map]
  · show s.idx.n_sensor.length = s.idx.n_mu.length ∧ s.idx.n_cov.length = s.idx.n_mu.length
    rw [c1, c2, c3]; exact h.tables
  · show s.idx.Im.length = s.idx.Nm.length
    rw [c4, htab.Nm, List.length_map, List.length_range]; exact h.pairs
  · intro b n u hu hn
    have hu : (s.unc.map fun u => ({ unc := .independent u, uS_i := none } : UncBlock α))[b]? = some u := hu
    have hn : s.idx.N_var[b]? = some n := hn
    rw [List.getElem?_map, Option.map_eq_some_iff] at hu
    obtain ⟨v, hv, rfl⟩ := hu
    rw [← c8, List.getElem?_map, hv, Option.map_some] at hn
    exact Option.some.inj hn
  · refine ⟨?_, h.parameters.2⟩
    show s.idx.parameter_sensor = _
    rw [l1]; exact h.parameters.1
  · show s.idx.constant_sensor = _
    rw [l2]; exact h.constants
  · show s.idx.n_cov.getLast? = _
    rw [c3]; exact h.covariates
  · show ∀ pair ∈ s.idx.Im, pair.1 ≠ pair.2 ∧ s.idx.sensors[pair.1]? ≠ s.idx.sensors[pair.2]?
    rw [c4, c5]; exact h.distinct
  · intro i pair hp
    have hp : s.idx.Im[i]? = some pair := hp
    rw [c4] at hp
    exact ⟨hside _ _ (h.sides i pair hp).1, hside _ _ (h.sides i pair hp).2⟩

/-! ### What the computed preconditioner is -/

section
variable [Field α] [LinearOrder α] [IsStrictOrderedRing α]

theorem History.trials {o : PCRoutines α} (ho : o.Sound) {tol : α} {p : PC α δ} (hp : p.xyza = p.hd.mu.values ++ p.hd.a) {mx n : Nat} {s : Nat → PC α δ × List α}
    {L : Nat → List (List α)} (h : PC.History o tol p mx n s L) : ∀ i, i ≤ n → (s i).2.length = p.hd.a.length ∧ ∃ b, b.length = p.hd.a.length ∧ (s i).1 = p.at b
  | 0, _ => by
    rw [h.start]
    refine ⟨rfl, p.hd.a, rfl, ?_⟩
    show p = { p with xyza := p.xyza.take p.hd.mu.values.length ++ p.hd.a }
    have : p.xyza.take p.hd.mu.values.length ++ p.hd.a = p.xyza := by rw [hp]; simp
    rw [this]
  | i + 1, hi => by
    obtain ⟨last, e1, e2, e3⟩ := h.step i (by omega)
    obtain ⟨q1, q2⟩ := ho.lsq _ _ _ _ _ e2
    have := (History.trials ho hp h i (by omega)).1
    exact ⟨by rw [← this]; exact q1, last, by rw [← this]; exact q2, e3⟩

theorem pc_enough {ms : Evaluable α δ} {labels clabels : List String} {m : Nat} {p : PC α δ} (h : ms.SolverReady labels clabels m) (hnorm : ms.normalise = .ok p.hd)
    (hx : p.xyza.length = p.hd.mu.values.length + p.hd.a.length) (ht : ∀ u ∈ ms.mu.unc, u.unc.typeID = 1 ∨ u.unc.typeID = 2)
    (htl : ms.IgnoresTimes labels clabels) {o : PCRoutines α} (ho : o.Sound) {tol : α} {a : List α} {V : List (List α)} {q : PC α δ}
    (hrun : p.run o tol = .ok (a, V, q)) : a.length = p.hd.a.length ∧ p.hd.a.length ≤ p.hd.mu.ks.length := by
  have hv := normalised_last h hnorm hx
  obtain ⟨n, s, L, J, hh, hsn, ha, hat, hq, hJ, hV⟩ := run_history ho hv hx hrun
  refine ⟨ha, ?_⟩
  obtain ⟨last, e1, e2, e3⟩ := hh.step (n - 1) (by have := hh.some; omega)
  unfold PC.calcLK at e1
  obtain ⟨VK, f1, f2⟩ := bind_ok.1 e1
  obtain ⟨b, hb, hpb⟩ := hat (n - 1) (by omega)
  obtain ⟨n', hn', hpos, _⟩ := C37_positive_definite f1
  have hn2 : n' = p.hd.mu.ks.length := by
    have hsol : p.asGN.Solves ms := ⟨hnorm, hx, (identS_shape (α := α) p.hd.a.length).1, (identS_shape (α := α) p.hd.a.length).2⟩
    obtain ⟨N, n1, hs⟩ := hsol.setup h
    obtain ⟨_, _, s3⟩ := hs.sizes
    have s3 : p.hd.mu.ks.length = ms.mu.idx.Nm.sum := s3
    have := hs.mu_eq
    unfold pyLast at this
    have := pyGet_ok.1 this
    rw [← List.getLast?_eq_getElem?] at this
    rw [hpb] at hn'
    have e : p.asGN.hd.mu.idx.cNm = (p.at b).hd.mu.idx.cNm := rfl
    rw [e, hn'] at this
    rw [s3]; exact Option.some.inj this
  subst hn2
  obtain ⟨k, Ja, F, c1, c2, c3, c4, _⟩ := C59_residuals h hnorm hx ht htl a ha
  obtain ⟨g1, g2⟩ := ho.chol _ _ _ hpos.square f2
  obtain ⟨j1, j2, j3⟩ := getJa_mat ho g1 c1 c3 c4 hJ
  unfold PC.spread at hV
  obtain ⟨R, r1, hV⟩ := bind_ok.1 hV
  obtain ⟨U, r2, hV⟩ := bind_ok.1 hV
  obtain ⟨q1, q2, q3, q4⟩ := ho.qrR _ _ _ _ j1 j2 r1
  obtain ⟨l1, _, _⟩ := ho.lstsq _ _ _ p.hd.a.length (by
    intro r hr
    obtain ⟨r', hr', rfl⟩ := List.mem_map.1 hr
    rw [List.length_take, q2 r' (List.mem_of_mem_take hr')]; omega) ⟨by simp [npEye], by simp [npEye]⟩ r2
  rw [List.length_map, List.length_take, q1] at l1
  omega

omit [LinearOrder α] [IsStrictOrderedRing α] in
theorem ready_rows {ms : Evaluable α δ} {labels clabels : List String} {m : Nat} (h : ms.SolverReady labels clabels m) : ms.mu.WRows := by
  rintro n M w hn hM ⟨b, w_i, u_i, ub, e1, e2, e3, e4⟩
  obtain ⟨_, M', h1, h2⟩ := h.wf.idx.block b n e1
  rw [hM] at h1; cases h1
  have := h.blocks b M ub e2 h2
  unfold UncBlock.Fits at this
  rcases e3 with e3 | ⟨uS, e3⟩
  · rw [e3] at this
    obtain ⟨w', uv, f1, _, f3, f4, _⟩ := this
    rw [e4] at f1; cases f1
    rw [f3.1, f4]
  · rw [e3] at this
    obtain ⟨⟨w', uv, f1, _, f3, f4, _⟩, _⟩ := this
    rw [e4] at f1; cases f1
    rw [f3.1, f4]

/-- **C82 (partial), the preconditioner.** When the first stage of a harmonisation returns: in every series the match-ups at positions `S n` were taken, in all arrays,
at most a tenth of them, sharing no stored column of a W matrix, and at most 100 000 in total; there are at least as many of them as parameters; the result has one
parameter per label; its covariance is the inverse of `Aᵀ VK⁻¹ A`, with A the Jacobian of the K of the sample with respect to the parameters at the returned estimate, VK
the covariance of the K of the sample formed at the trial before the last refinement, if A has full column rank; and with a least-squares routine that finds stationary points the
estimate is stationary. Nothing else is in the result. -/
theorem C82_preconditioner_partial {o : HarmRoutines α δ} (hrnd : SampleOk o.rnd) (ho : o.pc.Sound) {ms : Evaluable α δ} {labels clabels : List String} {m : Nat}
    (h : ms.SolverReady labels clabels m) (htl : ms.IgnoresTimes labels clabels) {r : HarmResult α} (hr : ms.precondition o = .ok r) :
    ∃ s S hd, sample2ind o.rnd o.rms o.dateZero ms.mu sampleFraction sampleMaximum = .ok s ∧ Aligned ms.mu s S ∧ SampleTables ms.mu s S ∧
      (∀ n M : Nat, 1 ≤ n → ms.mu.idx.Nm[n - 1]? = some M → (S n).Nodup ∧ (∀ p ∈ S n, p < M) ∧ 10 * (S n).length ≤ M ∧
        ∀ w, ms.mu.SeriesW n w → ∀ p ∈ S n, ∀ q ∈ S n, p ≠ q → ∀ c, ¬ (w.Stored p c ∧ w.Stored q c)) ∧
      s.ks.length ≤ 100000 ∧ ms.a.length ≤ s.ks.length ∧ MatchUpS.normalise { ms with mu := s.toMatchUp } = .ok hd ∧
      r.sensors = labels ∧ r.parameter.length = ms.a.length ∧ r.values = none ∧ r.ks = none ∧ r.cost = .missing ∧ r.dof = .missing ∧ r.pValue = .missing ∧
      ∃ V VK b k Ja, r.covariance = some V ∧ IsSquare V ms.a.length ∧ b.length = ms.a.length ∧ ((PC.init hd).at b).calcVK = .ok VK ∧
        IsSquare VK s.ks.length ∧ (PC.init hd).calcFJ r.parameter = .ok (k, Ja) ∧ IsUnit (rowsMat s.ks.length s.ks.length VK) ∧
        ((∀ v, (colsMat s.ks.length ms.a.length Ja).mulVec v = 0 → v = 0) →
          rowsMat ms.a.length ms.a.length V * ((colsMat s.ks.length ms.a.length Ja).transpose * (rowsMat s.ks.length s.ks.length VK)⁻¹ *
            colsMat s.ks.length ms.a.length Ja) = 1) ∧
        (o.pc.Stationary → ((colsMat s.ks.length ms.a.length Ja).transpose * (rowsMat s.ks.length s.ks.length VK)⁻¹).mulVec
          (listVec s.ks.length (List.zipWith (· - ·) k hd.mu.ks)) = 0) := by
  unfold Evaluable.precondition at hr
  obtain ⟨sm, hs0, hr1⟩ := bind_ok.1 hr
  obtain ⟨hd, hn, hr2⟩ := bind_ok.1 hr1
  clear hr hr1
  unfold Evaluable.sample at hs0
  obtain ⟨s, hs, hsm⟩ := bind_ok.1 hs0
  clear hs0
  rw [pure_ok] at hsm
  rw [← hsm] at hn
  unfold pcResult at hr2
  obtain ⟨sensors, hsn, hr3⟩ := bind_ok.1 hr2
  obtain ⟨⟨a, V, q⟩, hrun, hr4⟩ := bind_ok.1 hr3
  clear hr2 hr3
  rw [pure_ok] at hr4
  subst hr4
  obtain ⟨hready, hty⟩ := sampled_ready h hs
  obtain ⟨S, hA, hT, hmax, hS⟩ := sampling_correct _ _ _ _ _ _ _ hrnd (by unfold sampleFraction; norm_num) h.wf (ready_rows h) hs
  have hn' : (Evaluable.reorig { ms with mu := s.toMatchUp } s.idx).normalise = .ok (Evaluable.reorig hd s.idx) := by
    rw [reorig_normalise, hn]; rfl
  have hp : (PC.init hd).reorig s.idx = PC.init (Evaluable.reorig hd s.idx) := rfl
  have hrun' : (PC.init (Evaluable.reorig hd s.idx)).run o.pc o.pcTol = .ok (a, V, q.reorig s.idx) := by
    rw [← hp, PC.reorig_run, hrun]; rfl
  have hx : (PC.init (Evaluable.reorig hd s.idx)).xyza.length = hd.mu.values.length + hd.a.length := by
    show (hd.mu.values ++ hd.a).length = _
    simp
  obtain ⟨c1, c2, c3, c4, c5, c6, c7, c8, c9, c10, c11, c12⟩ := C20_sample_structure _ _ _ _ _ _ _ h.wf hs
  have c13 : s.idx.sensor_ms = ms.mu.idx.sensor_ms := hT.same.2.2.2.2.2
  have htl' : (Evaluable.reorig { ms with mu := s.toMatchUp } s.idx).IgnoresTimes labels clabels := by
    intro i k q pair name f e1 e2 e3 e4 e5
    have e1 : s.idx.Im[i]? = some pair := e1
    have e3 : s.idx.sensors[k]? = some name := e3
    have e4 : s.idx.sensor_ms[k]? = some q := e4
    rw [c4] at e1; rw [c5] at e3; rw [c13] at e4
    exact htl i k q pair name f e1 e2 e3 e4 e5
  have hty2 : ∀ u ∈ (Evaluable.reorig { ms with mu := s.toMatchUp } s.idx).mu.unc, u.unc.typeID = 1 ∨ u.unc.typeID = 2 := fun u hu => .inl (hty u hu)
  obtain ⟨p1, p2⟩ := pc_enough hready hn' hx hty2 htl' ho hrun'
  obtain ⟨n, t, L, VK, k, Ja, d1, d2, d3, d4, d5, d6, d7, d8, d9⟩ := C59_covariance hready hn' hx hty2 htl' ho hrun'
  obtain ⟨nm, m1, m2⟩ := normalise_ok hn
  have hda : hd.a = ms.a := by rw [m2]
  have hks : hd.mu.ks.length = s.ks.length := by
    have hsol : (PC.init (Evaluable.reorig hd s.idx)).asGN.Solves (Evaluable.reorig { ms with mu := s.toMatchUp } s.idx) :=
      ⟨hn', hx, (identS_shape (α := α) _).1, (identS_shape (α := α) _).2⟩
    obtain ⟨N, n1, hs1⟩ := hsol.setup hready
    obtain ⟨_, _, s3⟩ := hs1.sizes
    have s3 : hd.mu.ks.length = s.idx.Nm.sum := s3
    rw [s3, c9]
  have hpar : hd.mu.idx.parameter_sensor = some labels := by
    have hsol : (PC.init (Evaluable.reorig hd s.idx)).asGN.Solves (Evaluable.reorig { ms with mu := s.toMatchUp } s.idx) :=
      ⟨hn', hx, (identS_shape (α := α) _).1, (identS_shape (α := α) _).2⟩
    obtain ⟨N, n1, hs1⟩ := hsol.setup hready
    have h3 : hd.mu.idx = _ := hs1.facts.idx
    rw [h3]
    exact hready.parameters.1
  rw [hpar] at hsn
  obtain ⟨_, b, hb, htb⟩ := History.trials ho (p := PC.init (Evaluable.reorig hd s.idx)) rfl d1 (n - 1) (by omega)
  have ea : (PC.init (Evaluable.reorig hd s.idx)).hd.a = ms.a := hda
  have ek : (PC.init (Evaluable.reorig hd s.idx)).hd.mu.ks = hd.mu.ks := rfl
  rw [ea, ek, hks] at d8 d9
  rw [ea] at d6 hb
  rw [ek, hks] at d7
  rw [ea] at p1
  rw [ea, ek, hks] at p2
  rw [← hp, PC.reorig_calcFJ] at d5
  rw [htb] at d4
  refine ⟨s, S, hd, hs, hA, hT, ?_, by rw [c9]; exact hmax, p2, hn, (Except.ok.inj hsn).symm, p1, rfl, rfl, rfl, rfl, rfl, V, VK, b, k, Ja, rfl, d6, hb, d4, ?_,
    d5, d7, d8, d9⟩
  · intro n M h1 h2
    obtain ⟨f1, f2, f3, f4, _⟩ := hS n M h1 h2
    refine ⟨f1, f2, ?_, f4⟩
    unfold sampleFraction at f3
    have : (10 : ℚ) * (S n).length ≤ M := by linarith
    exact_mod_cast this
  · obtain ⟨n', hn1, hpos, _⟩ := C37_positive_definite d4
    have : n' = s.ks.length := by
      have e := (normalised_last hready hn' hx)
      have hsol : (PC.init (Evaluable.reorig hd s.idx)).asGN.Solves (Evaluable.reorig { ms with mu := s.toMatchUp } s.idx) :=
        ⟨hn', hx, (identS_shape (α := α) _).1, (identS_shape (α := α) _).2⟩
      obtain ⟨N, n1, hs1⟩ := hsol.setup hready
      have := hs1.mu_eq
      unfold pyLast at this
      have := pyGet_ok.1 this
      rw [← List.getLast?_eq_getElem?] at this
      have e : (PC.init (Evaluable.reorig hd s.idx)).asGN.hd.mu.idx.cNm = ((PC.init (Evaluable.reorig hd s.idx)).at b).hd.mu.idx.cNm := rfl
      rw [e, hn1] at this
      rw [c9]; exact Option.some.inj this
    rw [← this]
    exact hpos.square

/-- **C82 (partial), too few match-ups.** A harmonisation that computes its preconditioner needs at least ten match-ups per parameter: with fewer it never returns,
whatever the numerical routines. -/
theorem C82_needs_ten_match_ups_per_parameter {o : HarmRoutines α δ} (hrnd : SampleOk o.rnd) (ho : o.pc.Sound) {ms : Evaluable α δ} {labels clabels : List String} {m : Nat}
    (h : ms.SolverReady labels clabels m) (htl : ms.IgnoresTimes labels clabels) (hfew : ms.mu.ks.length < 10 * ms.a.length)
    (sp : Option (Dir α × List Char)) (gn : Option (GNSaved α)) (sg : Bool) (r : HarmResult α × Option (GNSaved α)) : harmoniseEIV o ms none sp gn sg ≠ .ok r := by
  intro hr
  unfold harmoniseEIV at hr
  obtain ⟨pcr, hp, _⟩ := bind_ok.1 hr
  unfold Evaluable.preconditioner at hp
  obtain ⟨q, hq, _⟩ := bind_ok.1 hp
  obtain ⟨s, S, hd, e1, e2, e3, e4, e5, e6, _⟩ := C82_preconditioner_partial hrnd ho h htl hq
  have hsum : ∀ (l : List Nat) (f : Nat → Nat), (∀ i M, l[i]? = some M → 10 * f i ≤ M) → 10 * ((List.range l.length).map f).sum ≤ l.sum := by
    intro l
    induction l with
    | nil => intro f _; simp
    | cons M l ih =>
      intro f hf
      have h0 := hf 0 M rfl
      have h1 := ih (fun i => f (i + 1)) (fun i M' hi => hf (i + 1) M' (by simpa using hi))
      rw [List.length_cons, List.range_succ_eq_map, List.map_cons, List.sum_cons, List.map_map, List.sum_cons]
      have : (List.map (f ∘ Nat.succ) (List.range l.length)) = (List.range l.length).map fun i => f (i + 1) := rfl
      rw [this]
      omega
  have := hsum ms.mu.idx.Nm (fun i => (S (i + 1)).length) (fun i M hi => (e4 (i + 1) M (by omega) (by simpa using hi)).2.2.1)
  rw [← e3.Nm, ← e3.ks, ← h.wf.ks] at this
  omega

end

end Verif
