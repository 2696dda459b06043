import Verif.Props.HarmoniseRun
import Verif.Props.ResultRound
import Verif.Props.Vis
/-
C82: the result of a harmonisation is saved and opened again.
-/
set_option autoImplicit false
namespace Verif
variable {α δ : Type}

/-! ### Residual files of opened match-ups can be written -/

theorem resSide_total [Zero α] {ds : List (Dataset α)} {x : Idx} {mx : Nat} (hf : IdxFacts ds x mx) (fill : α) {values : List α}
    (hv : values.length = x.N_var.sum) {i : Nat} {d : Dataset α} (hd : ds[i]? = some d) {s : Side α} (hs : s = d.s1 ∨ s = d.s2) (name : String) :
    ∃ r, resSide fill x (some values) i (x.sensors.idxOf s.name) d.M name = .ok r := by
  have hmem : s.name ∈ x.sensors := (hf.sens_mem _).2 ⟨s, mem_sides.2 ⟨d, List.mem_of_getElem? hd, hs⟩, rfl⟩
  have hlt : x.sensors.idxOf s.name < x.sensors.length := List.idxOf_lt_length_iff.2 hmem
  obtain ⟨m, hm⟩ : ∃ m, x.sensor_ms[x.sensors.idxOf s.name]? = some m :=
    ⟨_, List.getElem?_eq_getElem (by rw [← hf.ms_len]; exact hlt)⟩
  have hIm : x.Im[i]? = some (x.sensors.idxOf d.s1.name, x.sensors.idxOf d.s2.name) := by
    rw [hf.Im, List.getElem?_map, hd]; rfl
  have hbl : x.blocks = blockList x.Im x.sensor_ms mx := by
    unfold Idx.blocks
    rw [hf.n_sensor, hf.n_mu, hf.n_cov]
    generalize blockList x.Im x.sensor_ms mx = l
    induction l with
    | nil => rfl
    | cons a l ih => simp only [List.map_cons, List.zip_cons_cons, ih]
  have hcols : ∃ c, resColumns x values i (x.sensors.idxOf s.name) d.M m = .ok c := by
    unfold resColumns
    refine mapM_all_ok ?_
    intro c hc
    rw [List.mem_range] at hc
    have hb : (x.sensors.idxOf s.name, i + 1, c + 1) ∈ x.blocks := by
      rw [hbl, mem_blockList]
      refine ⟨by omega, ?_, ?_, by omega, _, by simpa using hIm, ?_⟩
      · have := hf.mx_ge m (List.mem_of_getElem? hm); omega
      · rw [List.getD_eq_getElem?_getD, hm]; simpa using hc
      · rcases hs with rfl | rfl
        · exact .inl rfl
        · exact .inr rfl
    obtain ⟨b, hb1, hb2⟩ : ∃ b, pyIndex x.blocks (x.sensors.idxOf s.name, i + 1, c + 1) = .ok b ∧
        x.blocks[b]? = some (x.sensors.idxOf s.name, i + 1, c + 1) := by
      exact ⟨_, pyIndex_of_mem hb, pyIndex_ok (pyIndex_of_mem hb)⟩
    have hbN : x.N_var[b]? = some d.M := by
      have : x.n_mu[b]? = some (i + 1) := by
        rw [hf.n_mu, List.getElem?_map, ← hbl, hb2]; rfl
      rw [hf.N_var, List.getElem?_map, this]
      simp [hd]
    have h1 : pyGet x.idx b = .ok (x.N_var.take b).sum := by
      rw [hf.idx]; exact pyGet_prefixSums _ (by have := (List.getElem?_eq_some_iff.1 hbN).1; omega)
    have h2 : pyGet x.idx (b + 1) = .ok (x.N_var.take (b + 1)).sum := by
      rw [hf.idx]; exact pyGet_prefixSums _ (by have := (List.getElem?_eq_some_iff.1 hbN).1; omega)
    refine ⟨_, bind_ok.2 ⟨b, hb1, bind_ok.2 ⟨_, h1, bind_ok.2 ⟨_, h2, setSlice_eq (by omega) (by simp) ?_⟩⟩⟩⟩
    rw [take_sum_next hbN, slice_len _ (by rw [hv]; exact take_sum_le hbN)]
    omega
  obtain ⟨c, hc⟩ := hcols
  exact ⟨_, bind_ok.2 ⟨m, pyGet_ok.2 hm, bind_ok.2 ⟨c, hc, rfl⟩⟩⟩

theorem resFile_total [Zero α] {ds : List (Dataset α)} {x : Idx} {mx : Nat} (hf : IdxFacts ds x mx) (fill : α) {values ks : List α}
    (hv : values.length = x.N_var.sum) (hk : ks.length = x.Nm.sum) {i : Nat} {p : Nat × Nat} (hp : x.Im[i]? = some p) :
    ∃ r, resFile fill x (some values) (some ks) i p = .ok r := by
  rw [hf.Im, List.getElem?_map] at hp
  cases hd : ds[i]? with
  | none => rw [hd] at hp; cases hp
  | some d =>
    rw [hd] at hp
    cases hp
    have hget : ∀ s : Side α, s = d.s1 ∨ s = d.s2 → pyGet x.sensors (x.sensors.idxOf s.name) = .ok s.name := by
      intro s hs
      have hmem : s.name ∈ x.sensors := (hf.sens_mem _).2 ⟨s, mem_sides.2 ⟨d, List.mem_of_getElem? hd, hs⟩, rfl⟩
      refine pyGet_ok.2 ?_
      rw [List.getElem?_eq_getElem (List.idxOf_lt_length_iff.2 hmem), List.getElem_idxOf]
    have hM : x.Nm[i]? = some d.M := by rw [hf.Nm, List.getElem?_map, hd]; rfl
    obtain ⟨r1, h1⟩ := resSide_total hf fill hv hd (s := d.s1) (.inl rfl) d.s1.name
    obtain ⟨r2, h2⟩ := resSide_total hf fill hv hd (s := d.s2) (.inr rfl) d.s2.name
    have hcN : x.cNm = prefixSums x.Nm := by rw [hf.cNm, hf.Nm]
    have hlt := (List.getElem?_eq_some_iff.1 hM).1
    have a1 : pyGet x.cNm i = .ok (x.Nm.take i).sum := by rw [hcN]; exact pyGet_prefixSums _ (by omega)
    have a2 : pyGet x.cNm (i + 1) = .ok (x.Nm.take (i + 1)).sum := by rw [hcN]; exact pyGet_prefixSums _ (by omega)
    refine ⟨_, bind_ok.2 ⟨_, hget d.s1 (.inl rfl), bind_ok.2 ⟨_, hget d.s2 (.inr rfl), bind_ok.2 ⟨_, pyGet_ok.2 hM, bind_ok.2 ⟨r1, h1, bind_ok.2 ⟨r2, h2,
      bind_ok.2 ⟨_, a1, bind_ok.2 ⟨_, a2, bind_ok.2 ⟨_, setSlice_eq (by omega) (by simp) ?_, rfl⟩⟩⟩⟩⟩⟩⟩⟩⟩
    rw [take_sum_next hM, slice_len _ (by rw [hk]; exact take_sum_le hM)]
    omega

theorem writeResiduals_total [Zero α] {fill : α} {x : Idx} {values ks : Option (List α)} (h : ∀ (i : Nat) (p : Nat × Nat), x.Im[i]? = some p →
    ∃ r, resFile fill x values ks i p = .ok r) (dir : Dir α) (fname : List Char) : ∃ d, writeResiduals fill dir fname x values ks = .ok d := by
  unfold writeResiduals
  have : ∀ (l : List ((Nat × Nat) × Nat)), (∀ pi ∈ l, ∃ r, resFile fill x values ks pi.2 pi.1 = .ok r) → ∀ dir : Dir α, ∃ d,
      l.foldlM (fun d pi => do
        let f ← resFile fill x values ks pi.2 pi.1
        pure (d.put (resName fname f.s1.name f.s2.name) (.res f))) dir = Except.ok d := by
    intro l
    induction l with
    | nil => intro _ dir; exact ⟨dir, rfl⟩
    | cons pi l ih =>
      intro hl dir
      obtain ⟨r, hr⟩ := hl pi (by simp)
      obtain ⟨d, hd⟩ := ih (fun q hq => hl q (by simp [hq])) (dir.put (resName fname r.s1.name r.s2.name) (.res r))
      exact ⟨d, by rw [List.foldlM_cons]; exact bind_ok.2 ⟨_, bind_ok.2 ⟨r, hr, rfl⟩, hd⟩⟩
  refine this _ ?_ dir
  rintro ⟨p, i⟩ hpi
  exact h i p (List.mem_zipIdx_iff_getElem?.1 hpi)

/-- The additional variables of a result fit the output file. -/
theorem sysVars_fit (r : GNResult α) {n : Nat} (h : (r.systematic_errors = none ∧ r.systematic_error_sensors = none) ∨
    ∃ es ss, r.systematic_errors = some es ∧ r.systematic_error_sensors = some ss ∧ es.length = ss.length ∧ ss ≠ [] ∧ ∀ s ∈ ss, s.toList.length ≤ 80) :
    VarsFit n (sysVars r) := by
  unfold sysVars
  rcases h with ⟨h, -⟩ | ⟨es, ss, h1, h2, h3, h4, h5⟩
  · rw [h]; exact ⟨fun _ => n, rfl, by simp⟩
  · rw [h1, h2]
    refine ⟨fun c => if c = 's' then ss.length else n, rfl, ?_⟩
    intro v hv
    simp only [List.mem_cons, List.not_mem_nil, or_false] at hv
    rcases hv with rfl | rfl
    · refine ⟨by simp, ?_⟩
      simp [h3]
    · refine ⟨by simp, ?_⟩
      exact ⟨rfl, h4, h5⟩

/-- What a run returns as systematic errors has the right sizes, and the names are those of sensors. -/
theorem run_systematic [Field α] [LinearOrder α] {g : GN α δ} {ms : Evaluable α δ} {labels clabels : List String} {m n : Nat} {N : List Nat}
    (hs : g.Setup ms labels clabels m N n) (hx2 : 2 ≤ g.xyza.length) {lsmr : LsmrObject α δ} {minres : GN α δ → List α → Py (List α)} {tol : GNTol α} {rc : Bool}
    {res : GNResult α} (hr : g.run lsmr minres tol rc = .ok res) :
    (res.systematic_errors = none ∧ res.systematic_error_sensors = none) ∨
    ∃ es ss, res.systematic_errors = some es ∧ res.systematic_error_sensors = some ss ∧ es.length = ss.length ∧ ss ≠ [] ∧ ∀ s ∈ ss, s ∈ ms.mu.idx.sensors := by
  obtain ⟨N_var, f, hlast, hsteps, _⟩ := C32_loop hr
  have hfin : res.state.xyza.length = g.xyza.length := hsteps.length (by show g.xyza.length ≠ 1; omega)
  have hxl : res.state.xyza.length = N.sum + n + labels.length := by rw [hfin, hs.xlen]
  unfold GN.run at hr
  obtain ⟨N_mu, h1, hr⟩ := bind_ok.1 hr
  obtain ⟨N_var', h2, hr⟩ := bind_ok.1 hr
  rw [hs.var_eq] at h2
  cases h2
  obtain ⟨r0, h3, hr⟩ := bind_ok.1 hr
  obtain ⟨st, h4, hr⟩ := bind_ok.1 hr
  obtain ⟨V, h5, hr⟩ := bind_ok.1 hr
  obtain ⟨rv, h6, hr⟩ := bind_ok.1 hr
  obtain ⟨n_uS, h7, hr⟩ := bind_ok.1 hr
  obtain ⟨sens, h8, hr⟩ := bind_ok.1 hr
  obtain ⟨cost, h9, hr⟩ := bind_ok.1 hr
  rw [pure_ok] at hr
  subst hr
  rw [hs.facts.unc, hs.facts.sys] at h7
  cases h7
  unfold GN.runSystematic at h8
  by_cases hn : n = 0
  · rw [if_pos hn] at h8
    cases h8
    exact .inl ⟨rfl, rfl⟩
  · rw [if_neg hn] at h8
    obtain ⟨l, hl, h8⟩ := bind_ok.1 h8
    rw [pure_ok] at h8
    subst h8
    right
    unfold sysSensors at hl
    obtain ⟨q, _, hl⟩ := bind_ok.1 hl
    obtain ⟨m1, m2⟩ := mapM_ok_get hl
    rw [List.length_range] at m1
    refine ⟨_, l, rfl, rfl, ?_, ?_, ?_⟩
    · have hxl' : st.xyza.length = N.sum + n + labels.length := hxl
      rw [slice_length]
      show min _ (st.xyza.length - _) = _
      rw [hxl', m1]; omega
    · rintro rfl
      exact hn (by simpa using m1.symm)
    · intro s hsl
      obtain ⟨k, hk⟩ := List.mem_iff_getElem?.1 hsl
      have hkl : k < n := by rw [← m1]; exact (List.getElem?_eq_some_iff.1 hk).1
      obtain ⟨c, hc1, hc2⟩ := m2 k k (by rw [List.getElem?_range hkl])
      rw [hk] at hc2
      cases hc2
      obtain ⟨b, _, hc1⟩ := bind_ok.1 hc1
      obtain ⟨t, _, hc1⟩ := bind_ok.1 hc1
      have := List.mem_of_getElem? (pyGet_ok.1 hc1)
      have hi : g.hd.mu.idx.sensors = ms.mu.idx.sensors := by rw [hs.facts.idx]
      rw [← hi]; exact this

/-- A name a sensor can have for its result to be found again: at most 80 characters, without blanks around it, underscores and line feeds. -/
def SavableName (s : String) : Prop := s.toList.length ≤ 80 ∧ NoEdgeBlanks s ∧ '_' ∉ s.toList ∧ '\n' ∉ s.toList

/-- **C82 (partial), what is saved.** Match-ups are opened together with their sensor data, and harmonised; the software configuration is complete and makes an ordinary
file name; sensor names are ordinary; no two files have the same two sensors; the first sensor of each file has one data column (the reference sensor); there is at least
one parameter; the uncertainties can be divided by. Then the result can be saved into an empty directory, and however the directory is listed, opening it gives the
parameters, their sensors, covariance, cost and degrees of freedom of the harmonisation, the files' pairs of sensors, and for each file the K residuals of its match-ups. -/
theorem C82_saved_partial [Field α] [LinearOrder α] {env : ReadEnv α δ} (he : EnumOk env.enumNat) {o : HarmRoutines α δ} {ds : List (Dataset α)}
    {sd : SensorData α (SensorModel α δ) (AdjModel α)} {m : Nat} (hf : SolvableFiles ds sd m) {ms : Evaluable α δ}
    (h : openMatchUpWith env defaultAdjustment ds sd = .ok ms) (hp : ms.a ≠ []) (hu : ∀ u ∈ ms.mu.unck, ∀ x ∈ u, x ≠ 0)
    (h2 : ∀ nm, ms.normalise = .ok nm → 2 ≤ nm.mu.values.length + ms.a.length) {pc : Option (Dir α × List (List Char))} {sp : Option (Dir α × List Char)}
    {r : HarmResult α} {sv : Option (GNSaved α)} (hr : harmoniseEIV o ms pc sp none false = .ok (r, sv))
    (hpc : ∀ a V, ms.preconditioner o pc sp = .ok (a, V) → a.length = ms.a.length ∧ ∀ S, o.pc.chol V = .ok S → IsSquare S ms.a.length)
    {cfg : SoftwareCfg} {j dset : String} (hj : cfg.job_id = some j) (hdset : cfg.matchup_dataset = some dset) {name : List Char} (hname : cfgName cfg = .ok name)
    (hon : OutputName name) (hsn : ∀ d ∈ ds, SavableName d.s1.name ∧ SavableName d.s2.name) (hpair : (ds.map fun d => (d.s1.name, d.s2.name)).Nodup)
    (hone : ∀ d ∈ ds, d.s1.m = 1) :
    ∃ out ks, saveHarmonisation o cfg [] r = .ok out ∧ r.ks = some ks ∧ ks.length = (ds.map (·.M)).sum ∧ ∀ listing : List (List Char), listing.Perm out.names →
      ∃ p q, openResult out listing true = .ok (p, some q) ∧ p.parameter = r.parameter ∧ p.sensors = r.sensors ∧ r.covariance = some p.covariance ∧ p.cost = r.cost ∧
        p.dof = r.dof ∧ p.pValue = r.pValue ∧ q.idx.Im.length = ds.length ∧ q.ks.length = ks.length ∧
        (∀ (i : Nat) (d : Dataset α), ds[i]? = some d → ∃ (k : Nat) (lo hi : Nat), q.idx.pairNames[k]? = some (d.s1.name, d.s2.name) ∧ q.idx.cNm[k]? = some lo ∧
          q.idx.cNm[k + 1]? = some hi ∧ slice q.ks lo hi = slice ks ((ds.map (·.M)).take i).sum ((ds.map (·.M)).take (i + 1)).sum) ∧
        ∀ (k : Nat) (pr : String × String), q.idx.pairNames[k]? = some pr → ∃ d ∈ ds, pr = (d.s1.name, d.s2.name) := by
  obtain ⟨labels, clabels, hrd⟩ := opened_solverReady he hf h
  unfold harmoniseEIV at hr
  obtain ⟨⟨a, V⟩, e1, hr⟩ := bind_ok.1 hr
  obtain ⟨g, e2, hr⟩ := bind_ok.1 hr
  obtain ⟨sensors, e3, hr⟩ := bind_ok.1 hr
  obtain ⟨res, e4, hr⟩ := bind_ok.1 hr
  rw [pure_ok, Prod.mk.injEq] at hr
  obtain ⟨hr1, hr2⟩ := hr
  clear hr2
  obtain ⟨ha, hS⟩ := hpc a V e1
  have h' := SolverReady.setParams hrd ha
  obtain ⟨S, hS1⟩ : ∃ S, o.pc.chol V = .ok S := by
    unfold Evaluable.solver at e2
    obtain ⟨hd, _, e2⟩ := bind_ok.1 e2
    obtain ⟨S, e, _⟩ := bind_ok.1 e2
    exact ⟨S, e⟩
  have hsq := hS S hS1
  obtain ⟨hg, hgS, hgx, hga⟩ := solver_solves h' e2 hS1 (by rw [ha]; exact hsq)
  obtain ⟨nm, n1, n2⟩ := normalise_ok hg.norm
  have hgm : g.hd.mu = nm := by rw [n2]
  have hnorm : ms.normalise = .ok { ms with mu := nm } := bind_ok.2 ⟨nm, n1, rfl⟩
  have hx2 : 2 ≤ g.xyza.length := by
    have := h2 _ hnorm
    rw [hgx, List.length_append, hgm]; show 2 ≤ _ + a.length; rw [ha]; exact this
  obtain ⟨est, back, k, p1, p2, p3, p4, p5, p6, p7, p8, p9⟩ := C58_residuals h' hg hx2 e4
  obtain ⟨N_mu, N_var, t1, t2, t3, t4⟩ := run_parts e4
  obtain ⟨N, n, hs⟩ := hg.setup h'
  obtain ⟨mu, ex, hmu, hex, hms⟩ := openMatchUpWith_inv h
  obtain ⟨x, mx, hx, hfx⟩ := getIdx_facts (openMatchUp_nonempty hmu)
  obtain ⟨x', hx', _, _, _, _, _, _, _, _, _, _, _, hidx, _⟩ := openMatchUp_inv hmu
  rw [hx] at hx'; cases hx'
  obtain ⟨c1, -, c3, -, -, -, -⟩ := C12_extraction defaultAdjustment sd hf.keys mu.idx.sensors ex hex
  have hidx' : ms.mu.idx = ({ x with additional_values_name := some (additionalNames env.enumStr ds) } : Idx).withSensorData ex := by rw [hms, ← hidx]
  have horig : g.hd.mu.original_idx = ms.mu.idx := by rw [solver_original e2]; exact hrd.orig
  have hpar : g.hd.mu.idx.parameter_sensor = some labels := by rw [hs.facts.idx]; exact hrd.parameters.1
  rw [hpar] at e3
  have e3 : sensors = labels := (Except.ok.inj e3).symm
  have hlab : labels.length = ms.a.length := hrd.parameters.2
  have hlab' : labels = ex.a_sensor := by
    have := hrd.parameters.1
    rw [hidx'] at this
    exact (Option.some.inj this).symm
  have hsens : ms.mu.idx.sensors = x.sensors := by rw [hidx']; rfl
  have hfacts : IdxFacts ds ms.mu.idx mx := by
    rw [hidx']
    exact ⟨hfx.Nm, hfx.cNm, hfx.sensors, hfx.sens_nodup, hfx.sens_mem, hfx.ms_len, hfx.ms_first, hfx.Im, hfx.mx_ge, hfx.mx_mem, hfx.n_sensor, hfx.n_mu, hfx.n_cov,
      hfx.N_var, hfx.idx⟩
  have hok : ∀ s ∈ ms.mu.idx.sensors, SavableName s := by
    intro s hs'
    obtain ⟨t, ht, rfl⟩ := (hfacts.sens_mem s).1 hs'
    obtain ⟨d, hd, h0⟩ := mem_sides.1 ht
    rcases h0 with rfl | rfl
    · exact (hsn d hd).1
    · exact (hsn d hd).2
  have hlok : ∀ s ∈ labels, SavableName s := by
    intro s hs'
    rw [hlab'] at hs'
    have := c3 s hs'
    refine hok s ?_
    rw [hsens]
    rw [hidx] at this
    exact this
  have hra : res.a.length = ms.a.length := by
    obtain ⟨N_var'', f, q1, q2, q3, q4, q5, q6, q7, q8, q9, q10, q11⟩ := C32_loop e4
    have hfin : res.state.xyza.length = g.xyza.length := q2.length (by show g.xyza.length ≠ 1; omega)
    have hNv := hs.var_eq
    unfold pyLast at hNv
    have := pyGet_ok.1 hNv
    rw [← List.getLast?_eq_getElem?, q1] at this
    have := Option.some.inj this
    rw [q9, List.length_drop, hfin, hs.xlen, hlab, this]; omega
  have hcov : res.covariance.length = ms.a.length ∧ ∀ row ∈ res.covariance, row.length = ms.a.length := by
    unfold GN.runCovariance at t4
    simp only [Bool.not_false, if_true] at t4
    obtain ⟨v1, v2, -⟩ := C31_symmetric t4
    have : g.hd.a.length = ms.a.length := by rw [hga]; exact ha
    simp only [this] at v1 v2
    exact ⟨v1, v2⟩
  have hsys := run_systematic hs hx2 e4
  have hkres : res.ks_res.length = ms.mu.idx.Nm.sum := by
    rw [p8 hu, List.length_zipWith, p6, Nat.min_self]
    exact hrd.wf.ks
  have hvres : res.values_res.length = ms.mu.idx.N_var.sum := by
    rw [p7, List.length_zipWith, p4, p5, Nat.min_self]
    exact hrd.wf.values
  have hImne : ms.mu.idx.Im ≠ [] := by
    rw [hfacts.Im]
    intro h0
    exact openMatchUp_nonempty hmu (List.map_eq_nil_iff.1 h0)
  have hpn : ms.mu.idx.pairNames = ds.map fun d => (d.s1.name, d.s2.name) := by
    unfold Idx.pairNames
    rw [hfacts.Im, List.map_map]
    refine List.map_congr_left ?_
    intro d hd
    have hget : ∀ s : Side α, s = d.s1 ∨ s = d.s2 → ms.mu.idx.sensors.getD (ms.mu.idx.sensors.idxOf s.name) "" = s.name := by
      intro s hs'
      have hmem : s.name ∈ ms.mu.idx.sensors := (hfacts.sens_mem _).2 ⟨s, mem_sides.2 ⟨d, hd, hs'⟩, rfl⟩
      rw [List.getD_eq_getElem?_getD, List.getElem?_eq_getElem (List.idxOf_lt_length_iff.2 hmem), List.getElem_idxOf]
      rfl
    simp only [Function.comp, hget d.s1 (.inl rfl), hget d.s2 (.inr rfl)]
  obtain ⟨attrs, hattrs, hatt⟩ : ∃ attrs : List (String × AttVal α), cfgAttrs cfg = .ok attrs ∧ attrs = [("software", .str cfg.software), ("software_version", .str cfg.version),
      ("software_tag", .str cfg.tag), ("job_id", .str j), ("matchup_dataset", .str (dset ++ "__"))] := by
    unfold cfgAttrs
    rw [hj, hdset]
    exact ⟨_, rfl, rfl⟩
  subst hr1
  obtain ⟨fo, hwo⟩ := C39_writes (r := { harmResult sensors g.hd.mu.original_idx res with attrs := attrs }) (cov := res.covariance) rfl
    (by show _ = res.a.length; rw [hra]; exact hcov.1) (by show ∀ row ∈ _, _ = res.a.length; rw [hra]; exact hcov.2)
    (by show sensors.length = res.a.length; rw [e3, hra, hlab])
    (by show res.a ≠ []; intro h0; rw [h0] at hra; exact hp (List.eq_nil_of_length_eq_zero hra.symm))
    (by show ∀ s ∈ sensors, _; rw [e3]; exact fun s hs' => (hlok s hs').1) (by intro h0; cases h0) (by intro h0; cases h0) (by intro h0; cases h0)
    (by
      show ∀ a ∈ attrs, _
      rw [hatt]
      intro a ha'
      simp only [List.mem_cons, List.not_mem_nil, or_false] at ha'
      rcases ha' with rfl | rfl | rfl | rfl | rfl <;> (intro h0; cases h0))
    (sysVars_fit res (by
      rcases hsys with h0 | ⟨es, ss, s1, s2, s3, s4, s5⟩
      · exact .inl h0
      · exact .inr ⟨es, ss, s1, s2, s3, s4, fun s hs' => (hok s (s5 s hs')).1⟩))
  obtain ⟨out, hout⟩ := writeResiduals_total (fill := o.fill) (x := ms.mu.idx) (values := some res.values_res) (ks := some res.ks_res)
    (fun i p hp' => resFile_total hfacts o.fill hvres hkres hp') (Dir.put [] name (.out fo)) name
  have hsave : HarmResult.save o.fill [] name true { harmResult sensors g.hd.mu.original_idx res with attrs := attrs } = .ok out := by
    refine bind_ok.2 ⟨fo, hwo, ?_⟩
    show writeResiduals o.fill _ name g.hd.mu.original_idx (some res.values_res) (some res.ks_res) = _
    rw [horig]; exact hout
  refine ⟨out, res.ks_res, bind_ok.2 ⟨attrs, hattrs, bind_ok.2 ⟨name, hname, hsave⟩⟩, rfl, by rw [hkres, hfacts.Nm], ?_⟩
  intro listing hl
  have hcN : ms.mu.idx.cNm = prefixSums ms.mu.idx.Nm := by rw [hfacts.cNm, hfacts.Nm]
  have hNI : ms.mu.idx.Nm.length = ms.mu.idx.Im.length := by rw [hfacts.Nm, hfacts.Im]; simp
  obtain ⟨p, q, w1, w2, w3, w4, w5, w6, w7, w8, w9, w10, w11⟩ := C40_k_residuals_partial hon (r := { harmResult sensors g.hd.mu.original_idx res with attrs := attrs })
    (by show ∀ s ∈ sensors, _; rw [e3]; exact fun s hs' => (hlok s hs').2.1)
    (by
      show ∀ v ∈ sysVars res, _
      intro v hv s hs'
      unfold sysVars at hv
      rcases hsys with ⟨h0, -⟩ | ⟨es, ss, s1, s2, s3, s4, s5⟩
      · rw [h0] at hv; cases hv
      · rw [s1, s2] at hv
        simp only [List.mem_cons, List.not_mem_nil, or_false] at hv
        rcases hv with rfl | rfl
        · cases hs'
        · exact (hok s (s5 s hs')).2.1)
    (by
      show PlainAttrs attrs
      rw [hatt]
      refine ⟨show ["software", "software_version", "software_tag", "job_id", "matchup_dataset"].Nodup by decide, ?_⟩
      intro a ha'
      simp only [List.mem_cons, List.not_mem_nil, or_false] at ha'
      have key : ∀ n ∈ ["software", "software_version", "software_tag", "job_id", "matchup_dataset"],
          n ∉ ["cost", "cost_dof", "cost_p_value"] ∧ n.toList.head? ≠ some '_' := by decide
      rcases ha' with rfl | rfl | rfl | rfl | rfl <;> exact key _ (by simp))
    (by show ∀ s ∈ g.hd.mu.original_idx.sensors, _; rw [horig]; exact fun s hs' => (hok s hs').2.2)
    (by show g.hd.mu.original_idx.sensors.Nodup; rw [horig]; exact hfacts.sens_nodup)
    (by show g.hd.mu.original_idx.pairNames.Nodup; rw [horig, hpn]; exact hpair)
    (by
      show ∀ p ∈ g.hd.mu.original_idx.pairNames, _
      rw [horig, hpn]
      intro p hp'
      obtain ⟨d, hd, rfl⟩ := List.mem_map.1 hp'
      exact hf.consistent.1 d hd)
    (by show g.hd.mu.original_idx.Im ≠ []; rw [horig]; exact hImne)
    (by show g.hd.mu.original_idx.cNm = prefixSums g.hd.mu.original_idx.Nm; rw [horig]; exact hcN)
    (by show g.hd.mu.original_idx.Nm.length = g.hd.mu.original_idx.Im.length; rw [horig]; exact hNI)
    (ks := res.ks_res) rfl (by show _ = g.hd.mu.original_idx.Nm.sum; rw [horig]; exact hkres)
    (.inr (by
      show ∀ p ∈ g.hd.mu.original_idx.Im, g.hd.mu.original_idx.sensor_ms[p.1]? = some 1
      rw [horig, hfacts.Im]
      intro p hp'
      obtain ⟨d, hd, rfl⟩ := List.mem_map.1 hp'
      have hmem : d.s1.name ∈ ms.mu.idx.sensors := (hfacts.sens_mem _).2 ⟨d.s1, mem_sides.2 ⟨d, hd, .inl rfl⟩, rfl⟩
      have hgi : ms.mu.idx.sensors[ms.mu.idx.sensors.idxOf d.s1.name]? = some d.s1.name := by
        rw [List.getElem?_eq_getElem (List.idxOf_lt_length_iff.2 hmem), List.getElem_idxOf]
      obtain ⟨t, ht1, ht2, ht3⟩ := hfacts.ms_first _ _ hgi
      show ms.mu.idx.sensor_ms[ms.mu.idx.sensors.idxOf d.s1.name]? = _
      rw [ht3, ConsistentFiles.sides_m hf.consistent ht1 (mem_sides.2 ⟨d, hd, .inl rfl⟩) ht2, hone d hd]))
    hsave hl
  refine ⟨p, q, w1, w2, w3, w4, w5, w6, w7, ?_, w9, ?_, ?_⟩
  · rw [w8]
    show g.hd.mu.original_idx.Im.length = _
    rw [horig, hfacts.Im, List.length_map]
  · intro i d hd
    obtain ⟨k', k1, a', b', lo, hi, k2, k3, k4, k5, k6⟩ := w10 i (d.s1.name, d.s2.name) (by
      show g.hd.mu.original_idx.pairNames[i]? = _
      rw [horig, hpn, List.getElem?_map, hd]; rfl)
    refine ⟨k', lo, hi, k1, k4, k5, ?_⟩
    have k2 : g.hd.mu.original_idx.cNm[i]? = some a' := k2
    have k3 : g.hd.mu.original_idx.cNm[i + 1]? = some b' := k3
    have hil : i < (ds.map (·.M)).length := by rw [List.length_map]; exact (List.getElem?_eq_some_iff.1 hd).1
    rw [horig, hfacts.cNm, prefixSums_getElem?_of_le _ (by omega)] at k2 k3
    rw [k6, ← Option.some.inj k2, ← Option.some.inj k3]
  · intro k' pr hk
    have := w11 k' pr hk
    have : pr ∈ g.hd.mu.original_idx.pairNames := this
    rw [horig, hpn] at this
    obtain ⟨d, hd, rfl⟩ := List.mem_map.1 this
    exact ⟨d, hd, rfl⟩

end Verif
