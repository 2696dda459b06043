import Verif.Model.Harmonise
import Verif.Props.GNTotal
import Verif.Props.PCRun
import Verif.Props.ResultRound
/-
C82: a whole harmonisation.
-/
set_option autoImplicit false
namespace Verif
variable {α δ : Type}

/-! ### Without sensor data labels nothing can be evaluated -/

theorem sideMeasurand_noLabels [Zero α] {ms : Evaluable α δ} (h : ms.mu.idx.parameter_sensor = none) (n s : Nat) (y : List α × Option (List (List α))) :
    sideMeasurand ms n s ≠ .ok y := by
  intro hy
  unfold sideMeasurand at hy
  obtain ⟨_, _, hy⟩ := bind_ok.1 hy
  obtain ⟨_, _, hy⟩ := bind_ok.1 hy
  obtain ⟨_, hp, _⟩ := bind_ok.1 hy
  rw [h] at hp
  cases hp

theorem seriesSet_nonempty {l : List Nat} (h : l ≠ []) : seriesSet l ≠ [] := by
  obtain ⟨a, t, rfl⟩ := List.exists_cons_of_ne_nil h
  have hle : ∀ (l : List Nat) (k : Nat), k ≤ l.foldl max k := by
    intro l
    induction l with
    | nil => intro k; exact Nat.le_refl k
    | cons b l ih => intro k; exact (Nat.le_max_left k b).trans (ih _)
  have : a ∈ seriesSet (a :: t) := by
    unfold seriesSet
    refine List.mem_filter.2 ⟨List.mem_range.2 ?_, by simp⟩
    have := hle t (max 0 a)
    simp only [List.foldl_cons]
    omega
  exact List.ne_nil_of_mem this

theorem evaluateK_noLabels [Zero α] [Sub α] {ms : Evaluable α δ} (h : ms.mu.idx.parameter_sensor = none) (hn : ms.mu.idx.n_mu ≠ []) (r : List α) :
    evaluateK ms (.num 0) ≠ .ok r := by
  intro hr
  unfold evaluateK at hr
  obtain ⟨m, hm, _⟩ := bind_ok.1 hr
  unfold evaluateAdjusted at hm
  obtain ⟨m', hm', _⟩ := bind_ok.1 hm
  unfold evaluateMeasurand at hm'
  obtain ⟨n, _, hf⟩ := bind_ok.1 hm'
  unfold fillRows at hf
  obtain ⟨a, t, hat⟩ := List.exists_cons_of_ne_nil (seriesSet_nonempty hn)
  have hsel : (SelArg.num 0).series ms.mu.idx = a :: t := hat
  rw [hsel, List.zipIdx_cons, List.foldlM_cons] at hf
  obtain ⟨s, hs, _⟩ := bind_ok.1 hf
  obtain ⟨_, _, hs⟩ := bind_ok.1 hs
  obtain ⟨_, _, hs⟩ := bind_ok.1 hs
  obtain ⟨_, _, hs⟩ := bind_ok.1 hs
  obtain ⟨_, hy, _⟩ := bind_ok.1 hs
  obtain ⟨y, hy, _⟩ := bind_ok.1 hy
  exact sideMeasurand_noLabels h _ _ _ hy

theorem calcF_noLabels [Field α] {g : GN α δ} (h : g.hd.mu.original_idx.parameter_sensor = none) (hn : g.hd.mu.original_idx.n_mu ≠ []) (x f : List α) :
    g.calcF x ≠ .ok f := by
  intro hf
  unfold GN.calcF at hf
  obtain ⟨_, _, hf⟩ := bind_ok.1 hf
  obtain ⟨_, _, hf⟩ := bind_ok.1 hf
  obtain ⟨_, _, hf⟩ := bind_ok.1 hf
  obtain ⟨_, _, hf⟩ := bind_ok.1 hf
  obtain ⟨est, he, hf⟩ := bind_ok.1 hf
  obtain ⟨ks, hk, _⟩ := bind_ok.1 hf
  have hidx : est.mu.idx = g.hd.mu.original_idx := by
    unfold MatchUpS.denormalise at he
    obtain ⟨n2, hn2, he⟩ := bind_ok.1 he
    rw [pure_ok] at he
    subst he
    unfold transformReverse at hn2
    simp only [bind_ok, pure_ok] at hn2
    obtain ⟨_, _, _, _, _, _, _, _, _, _, rfl⟩ := hn2
    rfl
  exact evaluateK_noLabels (by rw [hidx]; exact h) (by rw [hidx]; exact hn) ks hk

theorem GN.run_noLabels [Field α] [LinearOrder α] {g : GN α δ} (h : g.hd.mu.original_idx.parameter_sensor = none) (hn : g.hd.mu.original_idx.n_mu ≠ [])
    (lsmr : LsmrObject α δ) (minres : GN α δ → List α → Py (List α)) (tol : GNTol α) (rc : Bool) (r : GNResult α) : g.run lsmr minres tol rc ≠ .ok r := by
  intro hr
  unfold GN.run at hr
  obtain ⟨_, _, hr⟩ := bind_ok.1 hr
  obtain ⟨_, _, hr⟩ := bind_ok.1 hr
  obtain ⟨_, hf, _⟩ := bind_ok.1 hr
  exact calcF_noLabels h hn _ _ hf

theorem normalise_original [Field α] {ms nm : Evaluable α δ} (h : ms.normalise = .ok nm) : nm.mu.original_idx = ms.mu.original_idx := by
  unfold MatchUpS.normalise at h
  obtain ⟨n1, hn1, h⟩ := bind_ok.1 h
  rw [pure_ok] at h
  subst h
  unfold transformRun at hn1
  simp only [bind_ok, pure_ok] at hn1
  obtain ⟨_, _, _, _, _, _, _, _, _, _, rfl⟩ := hn1
  rfl

theorem GN.init_hd [Zero α] [One α] {chol : List (List α) → Py (List (List α))} {hd : Evaluable α δ} {V : Option (List (List α))} {g : GN α δ}
    (h : GN.init chol hd V = .ok g) : g.hd = hd ∧ g.xyza = hd.mu.values ++ hd.a := by
  cases V with
  | none =>
    cases h
    exact ⟨rfl, rfl⟩
  | some V =>
    obtain ⟨S, _, h⟩ := bind_ok.1 h
    rw [pure_ok] at h
    subst h
    exact ⟨rfl, rfl⟩

theorem solver_original [Field α] {o : HarmRoutines α δ} {ms : Evaluable α δ} {V : List (List α)} {gn : Option (GNSaved α)} {g : GN α δ}
    (h : ms.solver o V gn = .ok g) : g.hd.mu.original_idx = ms.mu.original_idx := by
  unfold Evaluable.solver at h
  cases gn with
  | none =>
    obtain ⟨hd, h1, h2⟩ := bind_ok.1 h
    rw [(GN.init_hd h2).1, normalise_original h1]
  | some f =>
    obtain ⟨g0, h1, h2⟩ := bind_ok.1 h
    obtain ⟨S, _, h3⟩ := bind_ok.1 h2
    rw [pure_ok] at h3
    rw [← h3]
    show g0.hd.mu.original_idx = _
    rw [(GN.init_hd h1).1]

theorem harmonise_noLabels [Field α] [LinearOrder α] {o : HarmRoutines α δ} {ms : Evaluable α δ} (h : ms.mu.original_idx.parameter_sensor = none)
    (hn : ms.mu.original_idx.n_mu ≠ []) {pc : Option (Dir α × List (List Char))} {sp : Option (Dir α × List Char)} {gn : Option (GNSaved α)} {sg : Bool}
    {r : HarmResult α × Option (GNSaved α)} : harmoniseEIV o ms pc sp gn sg ≠ .ok r := by
  intro hr
  unfold harmoniseEIV at hr
  obtain ⟨pcr, _, hr⟩ := bind_ok.1 hr
  obtain ⟨g, hg, hr⟩ := bind_ok.1 hr
  obtain ⟨_, _, hr⟩ := bind_ok.1 hr
  obtain ⟨_, hrun, _⟩ := bind_ok.1 hr
  have ho := solver_original hg
  exact GN.run_noLabels (by rw [ho]; exact h) (by rw [ho]; exact hn) _ _ _ _ _ hrun

theorem opened_noLabels [Zero α] [DecidableEq α] {env : ReadEnv α δ} {ds : List (Dataset α)} {mu : MatchUp α δ} (h : openMatchUp env ds = .ok mu) :
    mu.original_idx.parameter_sensor = none ∧ ((∃ d ∈ ds, 1 ≤ d.s1.m ∨ 1 ≤ d.s2.m) → ConsistentFiles ds → mu.original_idx.n_mu ≠ []) := by
  have hne := openMatchUp_nonempty h
  obtain ⟨x, mx, hx, hf⟩ := getIdx_facts hne
  obtain ⟨x', hx', _, _, _, _, _, _, _, _, _, _, _, hidx, hor⟩ := openMatchUp_inv h
  rw [hx] at hx'; cases hx'
  constructor
  · rw [hor, hidx]
    unfold getIdx at hx
    simp only [bind_ok, pure_ok] at hx
    obtain ⟨_, _, _, _, _, _, rfl⟩ := hx
    rfl
  · rintro ⟨d, hd, hm⟩ hc
    rw [hor, hidx]
    show x.n_mu ≠ []
    obtain ⟨i, hi⟩ := List.mem_iff_getElem?.1 hd
    obtain ⟨s, hs, hsm⟩ : ∃ s, (s = d.s1 ∨ s = d.s2) ∧ 1 ≤ s.m := by
      rcases hm with hm | hm
      · exact ⟨d.s1, .inl rfl, hm⟩
      · exact ⟨d.s2, .inr rfl, hm⟩
    have hcov := hf.cov_blocks hc (i := i) (d := d) (s := s) hi hs
    intro he
    have : covBlocks x (x.sensors.idxOf s.name) (i + 1) = [] := by unfold covBlocks; rw [he]; simp
    rw [this] at hcov
    simp only [List.map_nil] at hcov
    have := congrArg List.length hcov
    simp at this
    omega

/-- **C82 is false of the code.** The harmonisation operator opens the match-ups, sets the sensor data afterwards, and solves: whatever the files (with a data column),
sensor data, numerical routines, preconditioner given or not, saved solver given or not, and configuration, it never reaches the end, so no result is ever written. -/
theorem C82_operator_never_finishes [Field α] [LinearOrder α] (env : ReadEnv α δ) (o : HarmRoutines α δ) (ds : List (Dataset α)) (hc : ConsistentFiles ds)
    (hcol : ∃ d ∈ ds, 1 ≤ d.s1.m ∨ 1 ≤ d.s2.m) (sd : SensorData α (SensorModel α δ) (AdjModel α)) (pc_input : Option (Dir α × List (List Char)))
    (save_pc : Option (Dir α × List Char)) (gn_input : Option (GNSaved α)) (cfg : SoftwareCfg) (out d : Dir α) :
    harmonisationOp env o ds sd pc_input save_pc gn_input cfg out ≠ .ok d := by
  intro h
  unfold harmonisationOp at h
  obtain ⟨mu, hmu, h⟩ := bind_ok.1 h
  obtain ⟨ms, hms, h⟩ := bind_ok.1 h
  obtain ⟨_, _, h⟩ := bind_ok.1 h
  obtain ⟨r, hr, _⟩ := bind_ok.1 h
  obtain ⟨e, _, rfl⟩ := setSensorData_inv hms
  obtain ⟨h1, h2⟩ := opened_noLabels hmu
  exact harmonise_noLabels (ms := { mu := { mu with idx := mu.idx.withSensorData e }, a := e.a, constant := e.constant
                                    sensor_model := e.sensor_model, adjustment_model := e.adjustment_model }) h1 (h2 hcol hc) hr

/-- Nor does the command-line tool. -/
theorem C82_tool_never_finishes [Field α] [LinearOrder α] (env : ReadEnv α δ) (o : HarmRoutines α δ) (ds : List (Dataset α)) (hc : ConsistentFiles ds)
    (hcol : ∃ d ∈ ds, 1 ≤ d.s1.m ∨ 1 ≤ d.s2.m) (sd : SensorData α (SensorModel α δ) (AdjModel α)) (pc_input : Option (Dir α × List (List Char)))
    (save_pc : Option (Dir α × List Char)) (gn_input : Option (GNSaved α)) (software version tag : String) (out d : Dir α) :
    fullEivSolver env o ds sd pc_input save_pc gn_input software version tag out ≠ .ok d :=
  C82_operator_never_finishes env o ds hc hcol sd pc_input save_pc gn_input _ out d

/-- Its configuration could not be written either: even a finished harmonisation could not be saved. -/
theorem C82_tool_cannot_save [Zero α] (o : HarmRoutines α δ) (software version tag : String) (j : Option String) (out : Dir α) (r : HarmResult α) :
    saveHarmonisation o { software := software, version := version, tag := tag, job_id := none, matchup_dataset := j } out r = .error .keyError ∧
    ∀ k, saveHarmonisation o { software := software, version := version, tag := tag, job_id := some k, matchup_dataset := none } out r = .error .keyError :=
  ⟨rfl, fun _ => rfl⟩

/-- A computed preconditioner cannot be saved: with `save_pc` no harmonisation finishes, not even of match-ups opened together with their sensor data. -/
theorem C82_save_preconditioner_fails [Field α] [LinearOrder α] (o : HarmRoutines α δ) (ms : Evaluable α δ) (sp : Dir α × List Char) (gn : Option (GNSaved α))
    (sg : Bool) (r : HarmResult α × Option (GNSaved α)) : harmoniseEIV o ms none (some sp) gn sg ≠ .ok r := by
  intro hr
  unfold harmoniseEIV at hr
  obtain ⟨pcr, hp, _⟩ := bind_ok.1 hr
  unfold Evaluable.preconditioner at hp
  obtain ⟨q, hq, hp⟩ := bind_ok.1 hp
  obtain ⟨d', hd, _⟩ := bind_ok.1 hp
  refine C64_preconditioner_save_fails ?_ hd
  unfold Evaluable.precondition at hq
  obtain ⟨_, _, hq⟩ := bind_ok.1 hq
  obtain ⟨_, _, hq⟩ := bind_ok.1 hq
  unfold pcResult at hq
  obtain ⟨_, _, hq⟩ := bind_ok.1 hq
  obtain ⟨_, _, hq⟩ := bind_ok.1 hq
  rw [pure_ok] at hq
  rw [← hq]

end Verif
