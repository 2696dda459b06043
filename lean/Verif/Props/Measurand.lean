import Verif.Lemmas.Measurand
import Verif.Spec.Measurand
import Verif.Props.Transform
/-
Properties C44, C45 (evaluation of measurands and K) and C13 (sensor data set after opening).
-/
set_option autoImplicit false
namespace Verif
variable {α δ : Type}

theorem pick_eq_selectBy (ls : List String) (vals : List α) (s : String) :
    ((ls.zip vals).filter fun p => p.1 == s).map (·.2) = selectBy vals ls s := by
  unfold selectBy
  induction ls generalizing vals with
  | nil => simp
  | cons l ls ih =>
    cases vals with
    | nil => simp
    | cons v vals =>
      simp only [List.zip_cons_cons, List.filter_cons]
      by_cases h : l == s <;> simp [h, ih]

section opened
variable [Zero α] [DecidableEq α]

theorem openMatchUpWith_inv {ρ σ : Type} {env : ReadEnv α δ} {dflt : σ} {ds : List (Dataset α)} {sd : SensorData α ρ σ} {ms : MatchUpS α δ ρ σ}
    (h : openMatchUpWith env dflt ds sd = .ok ms) : ∃ mu e, openMatchUp env ds = .ok mu ∧ extractSensorData dflt sd mu.idx.sensors = .ok e ∧
      ms = { mu := { mu with idx := mu.idx.withSensorData e, original_idx := mu.idx.withSensorData e }, a := e.a, constant := e.constant
             sensor_model := e.sensor_model, adjustment_model := e.adjustment_model } := by
  unfold openMatchUpWith at h
  obtain ⟨mu, hmu, h⟩ := bind_ok.1 h
  obtain ⟨e, he, h⟩ := bind_ok.1 h
  rw [pure_ok] at h
  exact ⟨mu, e, hmu, he, h.symm⟩

/-- One side of one series of a match-up opened with sensor data. -/
theorem sideMeasurand_openedJ {env : ReadEnv α δ} {dflt : AdjModel α} {ds : List (Dataset α)} (hc : ConsistentFiles ds)
    {sd : SensorData α (SensorModel α δ) (AdjModel α)} (hn : (sd.map (·.1)).Nodup) {mu : MatchUp α δ} (hmu : openMatchUp env ds = .ok mu)
    {e : Extracted α (SensorModel α δ) (AdjModel α)} (he : extractSensorData dflt sd mu.idx.sensors = .ok e) (ox : Idx)
    {i : Nat} {d : Dataset α} {s : Side α} (hd : ds[i]? = some d) (hs : s = d.s1 ∨ s = d.s2) (hm : 1 ≤ s.m) {y : List α}
    {J : Option (List (List α))} (hy : MeasuredWith sd mu (i + 1) d s y J) :
    sideMeasurand (⟨{ mu with idx := mu.idx.withSensorData e, original_idx := ox }, e.a, e.constant, e.sensor_model, e.adjustment_model⟩ : Evaluable α δ)
      (i + 1) (mu.idx.sensors.idxOf s.name) = .ok (y, J) := by
  obtain ⟨x, mx, hx, hf⟩ := getIdx_facts (openMatchUp_nonempty hmu)
  obtain ⟨x', hx', hv, _, _, _, _, _, _, _, _, _, _, hidx, _⟩ := openMatchUp_inv hmu
  rw [hx] at hx'; cases hx'
  obtain ⟨out, ho, hol, hsl⟩ := openValues_spec hf hc
  rw [hv] at ho; cases ho
  obtain ⟨en, xt, al, t, hen, h1, h2, h3, hmod, hylen⟩ := hy
  obtain ⟨_, _, _, _, c5, c6, c7⟩ := C12_extraction dflt sd hn mu.idx.sensors e he
  have hside : s ∈ ds.flatMap Dataset.sides := mem_sides.2 ⟨d, List.mem_of_getElem? hd, hs⟩
  have hlook : mu.idx.sensors[mu.idx.sensors.idxOf s.name]? = some s.name := by rw [hidx]; exact hf.sens_lookup hside
  have huniq : ∀ e', (s.name, e') ∈ sd → e' = en := by
    intro e' h'
    have := (List.nodup_map_iff_inj_on (List.Nodup.of_map _ hn)).1 hn _ h' _ hen rfl
    simpa using this
  have hsens : mu.idx.sensors = x.sensors := by rw [hidx]
  obtain ⟨ea, hea, hpar, hcon⟩ := c5 s.name (List.mem_of_getElem? hlook)
  rw [huniq ea hea] at hpar hcon
  obtain ⟨eb, heb, hmd⟩ := c7 _ _ hlook
  rw [huniq eb heb] at hmd
  have hcov := hf.cov_blocks hc hd hs
  rw [hsens] at hlook hmd ⊢
  set n := x.sensors.idxOf s.name with hndef
  have hcovlen : (covBlocks x n (i + 1)).length = s.m := by
    have := congrArg List.length hcov; simpa using this
  have hcovget : ∀ (k b : Nat), (covBlocks x n (i + 1))[k]? = some b → x.blocks[b]? = some (n, i + 1, k + 1) ∧ k < s.m := by
    intro k b hk
    have hklt : k < s.m := by have := (List.getElem?_eq_some_iff.1 hk).1; omega
    have := congrArg (fun l => l[k]?) hcov
    simp only [List.getElem?_map, hk, Option.map_some, List.getElem?_range hklt] at this
    exact ⟨by simpa using this, hklt⟩
  have hblk : ∀ (k b : Nat), (covBlocks x n (i + 1))[k]? = some b →
      pyGet x.idx b = .ok (x.N_var.take b).sum ∧ pyGet x.idx (b + 1) = .ok (x.N_var.take (b + 1)).sum ∧
      (x.N_var.take (b + 1)).sum = (x.N_var.take b).sum + d.M ∧
      slice mu.values (x.N_var.take b).sum (x.N_var.take (b + 1)).sum = column d.M s.X k := by
    intro k b hk
    obtain ⟨hb, hklt⟩ := hcovget k b hk
    have hbl : b < x.blocks.length := (List.getElem?_eq_some_iff.1 hb).1
    have hN := hf.N_var_length
    rw [hf.idx]
    exact ⟨pyGet_prefixSums _ (by omega), pyGet_prefixSums _ (by omega), take_succ_sum _ (hf.N_var_get hb (by simpa using hd)),
      hsl i d s k b hd hs hklt hb⟩
  have hci : (covBlocks x n (i + 1)).mapM (fun b => (do
      let lo ← pyGet x.idx b
      let hi ← pyGet x.idx (b + 1)
      pure (lo, hi) : Py (Nat × Nat))) = .ok ((covBlocks x n (i + 1)).map fun b => ((x.N_var.take b).sum, (x.N_var.take (b + 1)).sum)) := by
    apply mapM_ok_of
    intro b hb
    obtain ⟨k, hk⟩ := List.mem_iff_getElem?.1 hb
    obtain ⟨e1, e2, _, _⟩ := hblk k b hk
    exact bind_ok.2 ⟨_, e1, bind_ok.2 ⟨_, e2, rfl⟩⟩
  obtain ⟨b0, hb0⟩ : ∃ b0, (covBlocks x n (i + 1))[0]? = some b0 := ⟨_, List.getElem?_eq_getElem (by omega)⟩
  obtain ⟨_, _, hM0, _⟩ := hblk 0 b0 hb0
  have hX : ((covBlocks x n (i + 1)).map fun b => ((x.N_var.take b).sum, (x.N_var.take (b + 1)).sum)).mapM (fun b : Nat × Nat =>
      setSlice (List.replicate d.M (0 : α)) 0 d.M (slice mu.values b.1 b.2)) =
      .ok ((List.range s.m).map fun c => column d.M s.X c) := by
    have : ((covBlocks x n (i + 1)).map fun b => ((x.N_var.take b).sum, (x.N_var.take (b + 1)).sum)).mapM (fun b : Nat × Nat =>
      setSlice (List.replicate d.M (0 : α)) 0 d.M (slice mu.values b.1 b.2)) =
      .ok (((covBlocks x n (i + 1)).map fun b => ((x.N_var.take b).sum, (x.N_var.take (b + 1)).sum)).map fun b => slice mu.values b.1 b.2) := by
      apply mapM_ok_of
      intro b hb
      obtain ⟨b', hb', rfl⟩ := List.mem_map.1 hb
      obtain ⟨k, hk⟩ := List.mem_iff_getElem?.1 hb'
      obtain ⟨_, _, _, e4⟩ := hblk k b' hk
      rw [setSlice_eq (Nat.zero_le _) (by simp) (by rw [e4]; simp)]
      simp
    rw [this]
    congr 1
    apply List.ext_getElem?
    intro k
    simp only [List.getElem?_map, Option.map_map]
    by_cases hk : k < s.m
    · obtain ⟨b, hb⟩ : ∃ b, (covBlocks x n (i + 1))[k]? = some b := ⟨_, List.getElem?_eq_getElem (by omega)⟩
      rw [hb, List.getElem?_range hk]
      simp [(hblk k b hb).2.2.2]
    · rw [List.getElem?_eq_none (by omega), List.getElem?_eq_none (by simp; omega)]; rfl
  unfold sideMeasurand
  simp only [hidx, Idx.withSensorData]
  have hcb : covBlocks { x with additional_values_name := some (additionalNames env.enumStr ds),
                                parameter_sensor := some e.a_sensor, constant_sensor := some e.constant_sensor } n (i + 1) = covBlocks x n (i + 1) := rfl
  refine bind_ok.2 ⟨s.name, pyGet_ok.2 hlook, ?_⟩
  rw [hcb]
  refine bind_ok.2 ⟨_, hci, ?_⟩
  refine bind_ok.2 ⟨en.parameter, congrArg Except.ok ((pick_eq_selectBy _ _ _).trans hpar), bind_ok.2 ⟨en.constant, congrArg Except.ok ((pick_eq_selectBy _ _ _).trans hcon), ?_⟩⟩
  refine bind_ok.2 ⟨((x.N_var.take b0).sum, (x.N_var.take (b0 + 1)).sum), by rw [pyGet, List.getElem?_map, hb0]; rfl, ?_⟩
  simp only [hM0, Nat.add_sub_cancel_left]
  refine bind_ok.2 ⟨_, hX, bind_ok.2 ⟨xt, ?_, bind_ok.2 ⟨al, ?_, bind_ok.2 ⟨t, ?_, bind_ok.2 ⟨en.model, pyGet_ok.2 hmd, ?_⟩⟩⟩⟩⟩
  · rw [← h1]; unfold MatchUp.getSensorAcrossTrackIndex; rw [hidx]; rfl
  · rw [← h2]; unfold MatchUp.getSensorAlongTrackIndex; rw [hidx]; rfl
  · rw [← h3]; unfold MatchUp.getSensorTime; rw [hidx]; rfl
  · exact hmod

theorem sideMeasurand_opened {env : ReadEnv α δ} {dflt : AdjModel α} {ds : List (Dataset α)} (hc : ConsistentFiles ds)
    {sd : SensorData α (SensorModel α δ) (AdjModel α)} (hn : (sd.map (·.1)).Nodup) {mu : MatchUp α δ} (hmu : openMatchUp env ds = .ok mu)
    {e : Extracted α (SensorModel α δ) (AdjModel α)} (he : extractSensorData dflt sd mu.idx.sensors = .ok e) (ox : Idx)
    {i : Nat} {d : Dataset α} {s : Side α} (hd : ds[i]? = some d) (hs : s = d.s1 ∨ s = d.s2) (hm : 1 ≤ s.m) {y : List α}
    (hy : MeasuredBy sd mu (i + 1) d s y) :
    ∃ J, sideMeasurand (⟨{ mu with idx := mu.idx.withSensorData e, original_idx := ox }, e.a, e.constant, e.sensor_model, e.adjustment_model⟩ : Evaluable α δ)
      (i + 1) (mu.idx.sensors.idxOf s.name) = .ok (y, J) := by
  obtain ⟨en, xt, al, t, J, h⟩ := hy
  exact ⟨J, sideMeasurand_openedJ hc hn hmu he ox hd hs hm ⟨en, xt, al, t, h⟩⟩

/-- Everything needed to evaluate an opened match-up on an increasing selection of its series. -/
theorem opened_selection {env : ReadEnv α δ} {dflt : AdjModel α} {ds : List (Dataset α)} (hc : ConsistentFiles ds)
    (hcol : ∀ d ∈ ds, 1 ≤ d.s1.m ∧ 1 ≤ d.s2.m)
    {sd : SensorData α (SensorModel α δ) (AdjModel α)} (hn : (sd.map (·.1)).Nodup) {mu : MatchUp α δ} (hmu : openMatchUp env ds = .ok mu)
    {e : Extracted α (SensorModel α δ) (AdjModel α)} (he : extractSensorData dflt sd mu.idx.sensors = .ok e) (ox : Idx)
    {sel : List Nat} (hr : ∀ n ∈ sel, 1 ≤ n ∧ n ≤ ds.length) {y1 y2 : Nat → List α}
    (hy : ∀ n ∈ sel, ∀ d, ds[n - 1]? = some d → MeasuredBy sd mu n d d.s1 (y1 n) ∧ MeasuredBy sd mu n d d.s2 (y2 n)) :
    let ms := (⟨{ mu with idx := mu.idx.withSensorData e, original_idx := ox }, e.a, e.constant, e.sensor_model, e.adjustment_model⟩ : Evaluable α δ)
    let pairs := fun n => (ms.mu.idx.Im.getD (n - 1) (0, 0))
    (∀ n ∈ sel, 1 ≤ n ∧ n ≤ ms.mu.idx.Nm.length) ∧
    (∀ n ∈ sel, ms.mu.idx.Im[n - 1]? = some (pairs n)) ∧
    (∀ n ∈ sel, (y1 n).length = ms.mu.idx.Nm.getD (n - 1) 0 ∧ (y2 n).length = ms.mu.idx.Nm.getD (n - 1) 0) ∧
    (∀ n ∈ sel, (∃ J, sideMeasurand ms n (pairs n).1 = .ok (y1 n, J)) ∧ ∃ J, sideMeasurand ms n (pairs n).2 = .ok (y2 n, J)) ∧
    (∀ n ∈ sel, ∃ d, ds[n - 1]? = some d ∧ ms.mu.idx.sensors[(pairs n).1]? = some d.s1.name ∧
      ms.mu.idx.sensors[(pairs n).2]? = some d.s2.name) := by
  obtain ⟨x, mx, hx, hf⟩ := getIdx_facts (openMatchUp_nonempty hmu)
  obtain ⟨x', hx', hv, _, _, _, _, _, _, _, _, _, _, hidx, _⟩ := openMatchUp_inv hmu
  rw [hx] at hx'; cases hx'
  have hget : ∀ n ∈ sel, ∃ d, ds[n - 1]? = some d := by
    intro n hn'
    exact ⟨_, List.getElem?_eq_getElem (by have := hr n hn'; omega)⟩
  have hIm : ∀ n d, ds[n - 1]? = some d → mu.idx.Im[n - 1]? = some (mu.idx.sensors.idxOf d.s1.name, mu.idx.sensors.idxOf d.s2.name) := by
    intro n d hd
    rw [hidx]
    simp only [hf.Im, List.getElem?_map, hd, Option.map_some]
  intro ms pairs
  have hpairs : ∀ n d, ds[n - 1]? = some d → pairs n = (mu.idx.sensors.idxOf d.s1.name, mu.idx.sensors.idxOf d.s2.name) := by
    intro n d hd
    change mu.idx.Im.getD (n - 1) (0, 0) = _
    rw [List.getD, hIm n d hd]; rfl
  have hNm : ms.mu.idx.Nm = ds.map (·.M) := by
    change mu.idx.Nm = _
    rw [hidx]; exact hf.Nm
  refine ⟨?_, ?_, ?_, ?_, ?_⟩
  · intro n hn'; rw [hNm, List.length_map]; exact hr n hn'
  · intro n hn'
    obtain ⟨d, hd⟩ := hget n hn'
    rw [hpairs n d hd]; exact hIm n d hd
  · intro n hn'
    obtain ⟨d, hd⟩ := hget n hn'
    obtain ⟨⟨_, _, _, _, _, _, _, _, _, _, h1⟩, ⟨_, _, _, _, _, _, _, _, _, _, h2⟩⟩ := hy n hn' d hd
    have : ms.mu.idx.Nm.getD (n - 1) 0 = d.M := by rw [hNm, List.getD, List.getElem?_map, hd]; rfl
    rw [this]; exact ⟨h1, h2⟩
  · intro n hn'
    obtain ⟨d, hd⟩ := hget n hn'
    obtain ⟨h1, h2⟩ := hy n hn' d hd
    rw [hpairs n d hd]
    have hn1 : n - 1 + 1 = n := by have := hr n hn'; omega
    have hcd := hcol d (List.mem_of_getElem? hd)
    rw [← hn1] at h1 h2
    have k1 := sideMeasurand_opened hc hn hmu he ox hd (.inl rfl) hcd.1 h1
    have k2 := sideMeasurand_opened hc hn hmu he ox hd (.inr rfl) hcd.2 h2
    rw [hn1] at k1 k2
    exact ⟨k1, k2⟩
  · intro n hn'
    obtain ⟨d, hd⟩ := hget n hn'
    refine ⟨d, hd, ?_, ?_⟩
    · rw [hpairs n d hd]; change mu.idx.sensors[_]? = _
      rw [hidx]; exact hf.sens_lookup (mem_sides.2 ⟨d, List.mem_of_getElem? hd, .inl rfl⟩)
    · rw [hpairs n d hd]; change mu.idx.sensors[_]? = _
      rw [hidx]; exact hf.sens_lookup (mem_sides.2 ⟨d, List.mem_of_getElem? hd, .inr rfl⟩)

/-- What the `matchup_series` argument selects, for a match-up opened from `ds`: 0 is every series, a number is itself, a list is itself. -/
def SelArg.Selects (ds : List (Dataset α)) : SelArg → List Nat → Prop
  | .num 0, sel => sel = (List.range ds.length).map (· + 1)
  | .num n, sel => sel = [n]
  | .list l, sel => sel = l

theorem selects_series {env : ReadEnv α δ} {ds : List (Dataset α)} (hc : ConsistentFiles ds) (hcol : ∀ d ∈ ds, 1 ≤ d.s1.m ∧ 1 ≤ d.s2.m)
    {mu : MatchUp α δ} (hmu : openMatchUp env ds = .ok mu) {ρ σ : Type} {e : Extracted α ρ σ} {arg : SelArg} {sel : List Nat}
    (ha : arg.Selects ds sel) : arg.series (mu.idx.withSensorData e) = sel := by
  have hwf := opened_wellLaid env ds hc (fun d hd => .inl (hcol d hd).1) mu hmu
  match arg, ha with
  | .num 0, ha =>
    have : (mu.idx.withSensorData e).n_mu = mu.idx.n_mu := rfl
    unfold SelArg.series
    rw [this, seriesSet_eq hwf.idx]
    have hNm : mu.idx.Nm = ds.map (·.M) := by
      obtain ⟨x, mx, hx, hf⟩ := getIdx_facts (openMatchUp_nonempty hmu)
      obtain ⟨x', hx', _, _, _, _, _, _, _, _, _, _, _, hidx, _⟩ := openMatchUp_inv hmu
      rw [hx] at hx'; cases hx'
      rw [hidx]; exact hf.Nm
    rw [hNm, List.length_map]
    change _ = _ at ha
    rw [ha, List.range'_eq_map_range]
    apply List.map_congr_left
    intro a _; omega
  | .num (n + 1), ha => exact ha.symm
  | .list l, ha => exact ha.symm

/-- **C44.** Opening consistent files (every side with at least one covariate) with sensor data and evaluating the measurand for a
selection of series in increasing order (in particular all of them, or a single one) gives one row per selected match-up, series by series
in order; in each series the first column is what the first sensor's own model gives on the file's data with the sensor's own parameters, constants,
track indices and times, and the second column likewise for the second sensor. -/
theorem C44_measurand_rows (env : ReadEnv α δ) (dflt : AdjModel α) (ds : List (Dataset α)) (hc : ConsistentFiles ds)
    (hcol : ∀ d ∈ ds, 1 ≤ d.s1.m ∧ 1 ≤ d.s2.m)
    (sd : SensorData α (SensorModel α δ) (AdjModel α)) (hn : (sd.map (·.1)).Nodup) (ms : Evaluable α δ)
    (h : openMatchUpWith env dflt ds sd = .ok ms)
    (arg : SelArg) (sel : List Nat) (ha : arg.Selects ds sel) (hs : sel.Pairwise (· < ·)) (hr : ∀ n ∈ sel, 1 ≤ n ∧ n ≤ ds.length)
    (y1 y2 : Nat → List α)
    (hy : ∀ n ∈ sel, ∀ d, ds[n - 1]? = some d → MeasuredBy sd ms.mu n d d.s1 (y1 n) ∧ MeasuredBy sd ms.mu n d d.s2 (y2 n)) :
    evaluateMeasurand ms arg = .ok ((sel.map y1).flatten, (sel.map y2).flatten) := by
  obtain ⟨mu, e, hmu, he, rfl⟩ := openMatchUpWith_inv h
  obtain ⟨k1, k2, k3, k4, _⟩ := opened_selection hc hcol hn hmu he (mu.idx.withSensorData e) hr (y1 := y1) (y2 := y2) hy
  exact evaluateMeasurand_ok (selects_series hc hcol hmu ha) hs k1 k2 k3 k4

/-- The adjustment model extracted for a sensor does what its entry says. -/
theorem adjusted_model [One α] {sd : SensorData α (SensorModel α δ) (AdjModel α)} (hn : (sd.map (·.1)).Nodup) {sensors : List String}
    {e : Extracted α (SensorModel α δ) (AdjModel α)} (he : extractSensorData defaultAdjustment sd sensors = .ok e) {i : Nat} {s : Side α}
    (hi : sensors[i]? = some s.name) {y a : List α} (hadj : AdjustedBy sd s y a) :
    ∃ g d, e.adjustment_model[i]? = some g ∧ g y = .ok (a, d) := by
  unfold extractSensorData at he
  obtain ⟨models, hm, he⟩ := bind_ok.1 he
  rw [pure_ok] at he
  subst he
  obtain ⟨_, m2⟩ := mapM_ok_get hm
  obtain ⟨c, hcm, hr⟩ := m2 i _ hi
  obtain ⟨en, hen, _, hcase⟩ := hadj
  have hfind : sd.find? (fun e => e.1 == s.name) = some (s.name, en) := by
    cases hf : sd.find? (fun e => e.1 == s.name) with
    | none => rw [List.find?_eq_none] at hf; exact absurd (by simp) (hf _ hen)
    | some q =>
      have hq := List.find?_some hf
      simp only [beq_iff_eq] at hq
      have := (List.nodup_map_iff_inj_on (List.Nodup.of_map _ hn)).1 hn _ (List.mem_of_find?_eq_some hf) _ hen hq
      rw [this]
  unfold extractModel SensorData.get at hcm
  rw [hfind] at hcm
  simp only [bind, Except.bind] at hcm
  refine ⟨c.2, ?_⟩
  rcases hcase with ⟨hno, rfl⟩ | ⟨g, d, hyes, hg, hval⟩
  · rw [hno] at hcm
    cases hcm
    exact ⟨_, by simp [hr], rfl⟩
  · cases hq : en.adjustment_model with
    | none => exact absurd hq hyes
    | some q =>
      rw [hq, hg] at hcm
      cases hcm
      exact ⟨d, by simp [hr], hval⟩

/-- **C45.** Under the same conditions the evaluated K is, match-up by match-up of the selected series in order, the adjusted measurand of the
second sensor minus the adjusted measurand of the first. -/
theorem C45_K_difference [One α] [Sub α] (env : ReadEnv α δ) (ds : List (Dataset α)) (hc : ConsistentFiles ds)
    (hcol : ∀ d ∈ ds, 1 ≤ d.s1.m ∧ 1 ≤ d.s2.m)
    (sd : SensorData α (SensorModel α δ) (AdjModel α)) (hn : (sd.map (·.1)).Nodup) (ms : Evaluable α δ)
    (h : openMatchUpWith env defaultAdjustment ds sd = .ok ms)
    (arg : SelArg) (sel : List Nat) (ha : arg.Selects ds sel) (hs : sel.Pairwise (· < ·)) (hr : ∀ n ∈ sel, 1 ≤ n ∧ n ≤ ds.length)
    (y1 y2 a1 a2 : Nat → List α)
    (hy : ∀ n ∈ sel, ∀ d, ds[n - 1]? = some d → MeasuredBy sd ms.mu n d d.s1 (y1 n) ∧ MeasuredBy sd ms.mu n d d.s2 (y2 n))
    (hadj : ∀ n ∈ sel, ∀ d, ds[n - 1]? = some d → AdjustedBy sd d.s1 (y1 n) (a1 n) ∧ AdjustedBy sd d.s2 (y2 n) (a2 n)) :
    evaluateK ms arg = .ok (sel.flatMap fun n => List.zipWith (fun second first => second - first) (a2 n) (a1 n)) := by
  obtain ⟨mu, e, hmu, he, rfl⟩ := openMatchUpWith_inv h
  obtain ⟨k1, k2, k3, k4, k5⟩ := opened_selection hc hcol hn hmu he (mu.idx.withSensorData e) hr (y1 := y1) (y2 := y2) hy
  have ka : ∀ n ∈ sel, (a1 n).length = (mu.idx.withSensorData e).Nm.getD (n - 1) 0 ∧ (a2 n).length = (mu.idx.withSensorData e).Nm.getD (n - 1) 0 := by
    intro n hn'
    obtain ⟨d, hd, _⟩ := k5 n hn'
    obtain ⟨⟨_, _, l1, _⟩, ⟨_, _, l2, _⟩⟩ := hadj n hn' d hd
    rw [l1, l2]; exact k3 n hn'
  unfold evaluateK
  refine bind_ok.2 ⟨_, evaluateAdjusted_ok (a1 := a1) (a2 := a2) (selects_series hc hcol hmu ha) hs k1 k2 k3 ka k4 ?_, ?_⟩
  · intro n hn'
    obtain ⟨d, hd, s1, s2⟩ := k5 n hn'
    obtain ⟨q1, q2⟩ := hadj n hn' d hd
    exact ⟨adjusted_model hn he s1 q1, adjusted_model hn he s2 q2⟩
  · have hzip : ∀ l : List Nat, (∀ n ∈ l, (a1 n).length = (a2 n).length) →
        ((l.map a2).flatten.length = (l.map a1).flatten.length) ∧
        List.zipWith (fun x1 x2 => x1 - x2) (l.map a2).flatten (l.map a1).flatten = l.flatMap fun n => List.zipWith (fun second first => second - first) (a2 n) (a1 n) := by
      intro l
      induction l with
      | nil => simp
      | cons n l ih =>
        intro hl
        obtain ⟨i1, i2⟩ := ih (fun m hm => hl m (by simp [hm]))
        have hl0 := hl n (by simp)
        refine ⟨by simp only [List.map_cons, List.flatten_cons, List.length_append, i1, hl0], ?_⟩
        simp only [List.map_cons, List.flatten_cons, List.flatMap_cons]
        rw [List.zipWith_append (by omega), i2]
    obtain ⟨z1, z2⟩ := hzip sel (fun n hn' => by rw [(ka n hn').1, (ka n hn').2])
    simp only
    rw [npZip_eq z1, z2]

end opened


/-! ### Concrete sensor data -/
namespace Fixture

/-- The reference model (first covariate), and a model `a0 + a1 * x0 + c0 * x1` applied row by row. -/
def refModel : SensorModel Int Int := fun X _ _ _ _ _ => do
  let x ← pyGet X 0
  pure (x, none)
def linModel : SensorModel Int Int := fun X a c _ _ _ => do
  let x0 ← pyGet X 0
  let x1 ← pyGet X 1
  let a0 ← pyGet a 0
  let a1 ← pyGet a 1
  let c0 ← pyGet c 0
  pure (List.zipWith (fun u v => a0 + a1 * u + c0 * v) x0 x1, none)

/-- An adjustment model that doubles. -/
def double : AdjModel Int := fun m => .ok (m.map (2 * ·), m.map fun _ => 2)

def models : SensorData Int (SensorModel Int Int) (AdjModel Int) :=
  [("B", { parameter := [1, 2], constant := [5], model := linModel }), ("A", { parameter := [], constant := [], model := refModel }),
   ("C", { parameter := [3, 4], constant := [6], model := linModel, adjustment_model := some double, sensor_adjustment_model := some double })]

theorem models_case : ∃ ms : Evaluable Int Int, openMatchUpWith env defaultAdjustment files models = .ok ms ∧
    evaluateMeasurand ms (.num 0) = .ok ([0, 1, 2, 35501, 35508], [7501, 7508, 7515, 90603, 90613]) ∧
    evaluateMeasurand ms (.num 2) = .ok ([35501, 35508], [90603, 90613]) ∧
    evaluateK ms (.list [1, 2]) = .ok [7501, 7507, 7513, 2 * 90603 - 35501, 2 * 90613 - 35508] :=
  ⟨_, rfl, by decide, by decide, by decide⟩

end Fixture

example : (Fixture.models.map (·.1)).Nodup ∧ (∀ d ∈ Fixture.files, 1 ≤ d.s1.m ∧ 1 ≤ d.s2.m) ∧
    (SelArg.num 0).Selects Fixture.files [1, 2] ∧ ([1, 2] : List Nat).Pairwise (· < ·) := by
  refine ⟨by decide, ?_, rfl, by decide⟩
  intro d hd
  simp only [Fixture.files, List.mem_cons, List.not_mem_nil, or_false] at hd
  rcases hd with rfl | rfl <;> decide

example : ∃ ms : Evaluable Int Int, openMatchUpWith Fixture.env defaultAdjustment Fixture.files Fixture.models = .ok ms ∧
    ∃ d, Fixture.files[2 - 1]? = some d ∧ MeasuredBy Fixture.models ms.mu 2 d d.s2 [90603, 90613] ∧
      AdjustedBy Fixture.models d.s2 [90603, 90613] [2 * 90603, 2 * 90613] :=
  ⟨_, rfl, _, rfl, ⟨_, _, _, _, _, .tail _ (.tail _ (.head _)), rfl, rfl, rfl, rfl, rfl⟩,
    ⟨_, .tail _ (.tail _ (.head _)), rfl, .inr ⟨_, _, by simp, rfl, rfl⟩⟩⟩

/-- **C44 is false of the code for selections not in increasing order:** rows are placed by the sizes of the selected series in *series* order, so
that the selection `[2, 1]` of two series of different sizes raises `ValueError`; and a repeated series raises `IndexError`. -/
theorem C44_unordered_selection_fails : ∃ ms : Evaluable Int Int,
    openMatchUpWith Fixture.env defaultAdjustment Fixture.files Fixture.models = .ok ms ∧
    evaluateMeasurand ms (.list [2, 1]) = .error .valueError ∧ evaluateMeasurand ms (.list [1, 1]) = .error .indexError :=
  ⟨_, rfl, by decide, by decide⟩

/-- **C44, derivatives:** for every opened match-up, asking for the derivatives as well raises `KeyError`. -/
theorem C44_derivatives_unavailable {α δ : Type} [Zero α] [DecidableEq α] (env : ReadEnv α δ) (dflt : AdjModel α) (ds : List (Dataset α))
    (sd : SensorData α (SensorModel α δ) (AdjModel α)) (ms : Evaluable α δ) (h : openMatchUpWith env dflt ds sd = .ok ms) (arg : SelArg) :
    evaluateMeasurandWithDerivatives ms arg = .error .keyError := by
  obtain ⟨mu, e, hmu, he, rfl⟩ := openMatchUpWith_inv h
  have hne := openMatchUp_nonempty hmu
  obtain ⟨x, mx, hx, hf⟩ := getIdx_facts hne
  obtain ⟨x', hx', _, _, _, _, _, _, _, _, _, _, _, hidx, _⟩ := openMatchUp_inv hmu
  rw [hx] at hx'; cases hx'
  cases ds with
  | nil => exact absurd rfl hne
  | cons d ds =>
    have hside : d.s1 ∈ (d :: ds).flatMap Dataset.sides := mem_sides.2 ⟨d, by simp, .inl rfl⟩
    have hlt : x.sensors.idxOf d.s1.name < x.sensor_ms.length := by
      have := (List.getElem?_eq_some_iff.1 (hf.sens_lookup hside)).1
      rw [hf.ms_len] at this; exact this
    unfold evaluateMeasurandWithDerivatives
    simp only [hidx, Idx.withSensorData, hf.Im, List.map_cons]
    rw [List.forM_eq_forM, List.forM_cons]
    rw [pyGet, List.getElem?_eq_getElem hlt]
    rfl

/-! ### C13 -/

theorem setSensorData_inv {ρ σ : Type} {dflt : σ} {mu : MatchUp α δ} {sd : SensorData α ρ σ} {ms : MatchUpS α δ ρ σ}
    (h : setSensorData dflt mu sd = .ok ms) : ∃ e, extractSensorData dflt sd mu.idx.sensors = .ok e ∧
      ms = { mu := { mu with idx := mu.idx.withSensorData e }, a := e.a, constant := e.constant
             sensor_model := e.sensor_model, adjustment_model := e.adjustment_model } := by
  unfold setSensorData at h
  obtain ⟨e, he, h⟩ := bind_ok.1 h
  rw [pure_ok] at h
  exact ⟨e, he, h.symm⟩

/-- **C13 (partial).** Setting sensor data on an opened match-up and opening with the sensor data succeed for the same inputs, and then every evaluation of
measurands, adjusted measurands and K gives the same result.  Missing: evaluation after transformation, which is false (below). -/
theorem C13_before_transformation_partial [Zero α] [DecidableEq α] [Sub α] (env : ReadEnv α δ) (dflt : AdjModel α) (ds : List (Dataset α))
    (sd : SensorData α (SensorModel α δ) (AdjModel α)) (mu : MatchUp α δ) (hmu : openMatchUp env ds = .ok mu) :
    (∀ e, setSensorData dflt mu sd = .error e ↔ openMatchUpWith env dflt ds sd = .error e) ∧
    ∀ ms, setSensorData dflt mu sd = .ok ms → ∃ ms', openMatchUpWith env dflt ds sd = .ok ms' ∧
      ∀ arg, evaluateMeasurand ms arg = evaluateMeasurand ms' arg ∧ evaluateAdjusted ms arg = evaluateAdjusted ms' arg ∧
        evaluateK ms arg = evaluateK ms' arg := by
  unfold setSensorData openMatchUpWith
  rw [hmu]
  simp only [bind, Except.bind]
  cases he : extractSensorData dflt sd mu.idx.sensors with
  | error e' => simp
  | ok e =>
    refine ⟨by simp [pure, Except.pure], ?_⟩
    intro ms hms
    cases hms
    refine ⟨_, rfl, ?_⟩
    intro arg
    exact ⟨rfl, rfl, rfl⟩

/-- The sensor data labels are lost: **C13 is false of the code.** For every opened match-up whose sensor data are set afterwards, once the match-up has been
transformed to independent variables and back (as the solver does for every estimate), evaluating K raises `KeyError`. -/
theorem C13_after_transformation_fails [Field α] [DecidableEq α] (env : ReadEnv α δ) (dflt : AdjModel α) (ds : List (Dataset α))
    (hc : ConsistentFiles ds) (hcol : ∀ d ∈ ds, 1 ≤ d.s1.m ∧ 1 ≤ d.s2.m)
    (sd : SensorData α (SensorModel α δ) (AdjModel α)) (mu : MatchUp α δ) (hmu : openMatchUp env ds = .ok mu)
    (ms nm rm : Evaluable α δ) (hset : setSensorData dflt mu sd = .ok ms) (hrun : ms.normalise = .ok nm) (hrev : nm.denormalise = .ok rm) :
    evaluateK rm (.num 0) = .error .keyError := by
  obtain ⟨e, he, rfl⟩ := setSensorData_inv hset
  have hwf := opened_wellLaid env ds hc (fun d hd => .inl (hcol d hd).1) mu hmu
  have hne := openMatchUp_nonempty hmu
  obtain ⟨x, mx, hx, hf⟩ := getIdx_facts hne
  obtain ⟨x', hx', hv, _, _, _, _, _, _, _, _, _, _, hidx, hor⟩ := openMatchUp_inv hmu
  rw [hx] at hx'; cases hx'
  have hpar : mu.idx.parameter_sensor = none := by
    rw [hidx]
    unfold getIdx at hx
    simp only [bind_ok, pure_ok] at hx
    obtain ⟨_, _, _, _, _, _, rfl⟩ := hx
    rfl
  have hrm : rm.mu.idx = mu.idx := by
    unfold MatchUpS.normalise at hrun
    obtain ⟨n1, hn1, hrun⟩ := bind_ok.1 hrun
    rw [pure_ok] at hrun
    subst hrun
    unfold MatchUpS.denormalise at hrev
    obtain ⟨n2, hn2, hrev⟩ := bind_ok.1 hrev
    rw [pure_ok] at hrev
    subst hrev
    unfold transformRun at hn1
    simp only [bind_ok, pure_ok] at hn1
    obtain ⟨_, _, _, _, _, _, _, _, _, _, rfl⟩ := hn1
    unfold transformReverse at hn2
    simp only [bind_ok, pure_ok] at hn2
    obtain ⟨_, _, _, _, _, _, _, _, _, _, rfl⟩ := hn2
    exact hor
  obtain ⟨d, ds', rfl⟩ : ∃ d ds', ds = d :: ds' := List.exists_cons_of_ne_nil hne
  have hsel : (SelArg.num 0).series rm.mu.idx = 1 :: (List.range' 2 ds'.length) := by
    unfold SelArg.series
    rw [hrm, seriesSet_eq hwf.idx, hidx]
    simp only [hf.Nm, List.length_map, List.length_cons]
    rfl
  have hside : sideMeasurand rm 1 (x.sensors.idxOf d.s1.name) = .error .keyError := by
    have hs1 : d.s1 ∈ (d :: ds').flatMap Dataset.sides := mem_sides.2 ⟨d, by simp, .inl rfl⟩
    have hcb : covBlocks rm.mu.idx (x.sensors.idxOf d.s1.name) 1 = covBlocks x (x.sensors.idxOf d.s1.name) 1 := by rw [hrm, hidx]; rfl
    have hci : (covBlocks x (x.sensors.idxOf d.s1.name) 1).mapM (fun b => (do
        let lo ← pyGet x.idx b
        let hi ← pyGet x.idx (b + 1)
        pure (lo, hi) : Py (Nat × Nat))) = .ok ((covBlocks x (x.sensors.idxOf d.s1.name) 1).map fun b => ((x.N_var.take b).sum, (x.N_var.take (b + 1)).sum)) := by
      apply mapM_ok_of
      intro b hb
      have hbl : b < x.blocks.length := by
        have hcov := hf.cov_blocks hc (i := 0) (d := d) (s := d.s1) rfl (.inl rfl)
        have : x.blocks[b]? ∈ (covBlocks x (x.sensors.idxOf d.s1.name) (0 + 1)).map fun b => x.blocks[b]? := List.mem_map.2 ⟨b, hb, rfl⟩
        rw [hcov] at this
        obtain ⟨c, _, hc'⟩ := List.mem_map.1 this
        exact (List.getElem?_eq_some_iff.1 hc'.symm).1
      have hN := hf.N_var_length
      rw [hf.idx]
      exact bind_ok.2 ⟨_, pyGet_prefixSums _ (by omega), bind_ok.2 ⟨_, pyGet_prefixSums _ (by omega), rfl⟩⟩
    have hix : rm.mu.idx.idx = x.idx := by rw [hrm, hidx]
    have hsn : rm.mu.idx.sensors = x.sensors := by rw [hrm, hidx]
    unfold sideMeasurand
    rw [hcb, hix, hsn, pyGet_ok.2 (hf.sens_lookup hs1), hrm, hpar]
    simp only [bind, Except.bind]
    simp only [bind, Except.bind] at hci
    rw [hci]
    rfl
  have hb : selBounds rm.mu.idx ((SelArg.num 0).series rm.mu.idx) = prefixSums (((SelArg.num 0).series rm.mu.idx).map fun n => x.Nm.getD (n - 1) 0) := by
    have hNm : rm.mu.idx.Nm = x.Nm := by rw [hrm, hidx]
    rw [← hNm]
    apply selBounds_eq
    · rw [hsel]
      have : (1 :: List.range' 2 ds'.length) = List.range' 1 (ds'.length + 1) := rfl
      rw [this]
      exact List.pairwise_lt_range'
    · intro n hn
      rw [hsel] at hn
      rw [hNm, hf.Nm]
      have : (1 :: List.range' 2 ds'.length) = List.range' 1 (ds'.length + 1) := rfl
      rw [this, List.mem_range'_1] at hn
      simp; omega
  have hlast : pyGet (selBounds rm.mu.idx ((SelArg.num 0).series rm.mu.idx)) ((selBounds rm.mu.idx ((SelArg.num 0).series rm.mu.idx)).length - 1) =
      .ok (((SelArg.num 0).series rm.mu.idx).map fun n => x.Nm.getD (n - 1) 0).sum := by
    rw [hb, prefixSums_length, Nat.add_sub_cancel, pyGet_prefixSums _ (Nat.le_refl _), List.take_length]
  have hfill : ∀ init, fillRows rm.mu.idx ((SelArg.num 0).series rm.mu.idx) (fun n_mu n_sensor _ =>
      (do let y ← sideMeasurand rm n_mu n_sensor
          pure y.1 : Py (List α))) init = .error .keyError := by
    intro init
    have hIm : pyGet rm.mu.idx.Im (1 - 1) = .ok (x.sensors.idxOf d.s1.name, x.sensors.idxOf d.s2.name) := by
      have : rm.mu.idx.Im = x.Im := by rw [hrm, hidx]
      rw [this, hf.Im]; rfl
    have h0 : pyGet (selBounds rm.mu.idx ((SelArg.num 0).series rm.mu.idx)) 0 = .ok 0 := by
      rw [hb, pyGet_prefixSums _ (Nat.zero_le _)]; simp
    obtain ⟨q, h1⟩ : ∃ q, pyGet (selBounds rm.mu.idx ((SelArg.num 0).series rm.mu.idx)) (0 + 1) = .ok q := by
      rw [hb, hsel]; exact ⟨_, pyGet_prefixSums _ (by simp)⟩
    unfold fillRows
    conv_lhs => rw [hsel]
    rw [List.zipIdx_cons, List.foldlM_cons]
    rw [← hsel]
    simp only [hIm, h0, h1, hside, bind, Except.bind]
  have hm : evaluateMeasurand rm (.num 0) = .error .keyError := by
    unfold evaluateMeasurand
    simp only [hlast]
    exact hfill _
  unfold evaluateK evaluateAdjusted
  rw [hm]
  rfl


/-- Models for the rational fixture: the sum of the two covariates times the parameter (1 if there is none). -/
def Fixture.qmodel : SensorModel ℚ Int := fun X a _ _ _ _ => do
  let x0 ← pyGet X 0
  let x1 ← pyGet X 1
  pure (List.zipWith (fun u v => a.getD 0 1 * (u + v)) x0 x1, none)

def Fixture.qmodels : SensorData ℚ (SensorModel ℚ Int) (AdjModel ℚ) :=
  [("A", { parameter := [], constant := [], model := Fixture.qmodel }), ("B", { parameter := [3], constant := [], model := Fixture.qmodel })]

/-- A concrete case of both parts of C13: sensor data set after opening, transformation there and back succeed (so that the theorem above applies: K cannot be
evaluated), while the same match-up opened with the sensor data evaluates. -/
theorem C13_case : ∃ mu ms nm rm ms' nm' rm', openMatchUp Fixture.qenv [Fixture.rolling] = .ok mu ∧
    setSensorData defaultAdjustment mu Fixture.qmodels = .ok ms ∧ ms.normalise = .ok nm ∧ nm.denormalise = .ok rm ∧
    evaluateK rm (.num 0) = .error .keyError ∧
    openMatchUpWith Fixture.qenv defaultAdjustment [Fixture.rolling] Fixture.qmodels = .ok ms' ∧ ms'.normalise = .ok nm' ∧
    nm'.denormalise = .ok rm' ∧ evaluateK rm' (.num 0) = .ok [310, 314, 326] ∧ evaluateK ms (.num 0) = .ok [310, 314, 326] := by
  obtain ⟨p, h1, h2⟩ := Fixture.check_ok' (x := (do
      let mu ← openMatchUp Fixture.qenv [Fixture.rolling]
      let ms ← setSensorData defaultAdjustment mu Fixture.qmodels
      let nm ← ms.normalise
      let rm ← nm.denormalise
      let ms' ← openMatchUpWith Fixture.qenv defaultAdjustment [Fixture.rolling] Fixture.qmodels
      let nm' ← ms'.normalise
      let rm' ← nm'.denormalise
      let k ← evaluateK rm' (.num 0)
      let k' ← evaluateK ms (.num 0)
      pure (k, k') : Py (List ℚ × List ℚ)))
    (fun p => decide (p = ([310, 314, 326], [310, 314, 326]))) (by decide +kernel)
  obtain ⟨mu, g1, h1⟩ := bind_ok.1 h1
  obtain ⟨ms, g2, h1⟩ := bind_ok.1 h1
  obtain ⟨nm, g3, h1⟩ := bind_ok.1 h1
  obtain ⟨rm, g4, h1⟩ := bind_ok.1 h1
  obtain ⟨ms', g5, h1⟩ := bind_ok.1 h1
  obtain ⟨nm', g6, h1⟩ := bind_ok.1 h1
  obtain ⟨rm', g7, h1⟩ := bind_ok.1 h1
  obtain ⟨k, g8, h1⟩ := bind_ok.1 h1
  obtain ⟨k', g9, h1⟩ := bind_ok.1 h1
  rw [pure_ok] at h1
  subst h1
  simp only [decide_eq_true_eq, Prod.mk.injEq] at h2
  rw [h2.1] at g8
  rw [h2.2] at g9
  refine ⟨mu, ms, nm, rm, ms', nm', rm', g1, g2, g3, g4, ?_, g5, g6, g7, g8, g9⟩
  refine C13_after_transformation_fails _ _ _ (Fixture.qfile_consistent _ _ _ _) ?_ _ mu g1 ms nm rm g2 g3 g4
  intro d hd
  simp only [List.mem_cons, List.not_mem_nil, or_false] at hd
  subst hd
  exact ⟨show 1 ≤ 2 by omega, show 1 ≤ 2 by omega⟩

end Verif
