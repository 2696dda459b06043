import Verif.Lemmas.VisStep
import Verif.Props.Measurand
import Verif.Props.TimeAverage
/-
A `HarmonisationVis` object over opened files.
-/
set_option autoImplicit false
namespace Verif
variable {α : Type}

/-! ### Specification -/

/-- The sensor data with the parameters of every sensor replaced by those that the harmonisation result labels with its name, in their order. -/
def harmonisedData {ρ σ : Type} (r : List α × List String) (sd : SensorData α ρ σ) : SensorData α ρ σ :=
  sd.map fun e => (e.1, { e.2 with parameter := selectBy r.1 r.2 e.1 })

/-- `L` holds the adjusted measurands of all match-ups, of the first sensors and of the second sensors: series by series what the sensor's own model, with the parameters and constants
of the sensor data, gives on the file's data. -/
def AllMeasurands (sd : SensorData α (SensorModel α DateTime) (AdjModel α)) (mu : MatchUp α DateTime) (ds : List (Dataset α)) (L : List α × List α) : Prop :=
  ∃ y1 y2 a1 a2 : Nat → List α, (∀ (i : Nat) (d : Dataset α), ds[i]? = some d →
      MeasuredBy sd mu (i + 1) d d.s1 (y1 i) ∧ MeasuredBy sd mu (i + 1) d d.s2 (y2 i) ∧ AdjustedBy sd d.s1 (y1 i) (a1 i) ∧ AdjustedBy sd d.s2 (y2 i) (a2 i)) ∧
    L.1 = ((List.range ds.length).map a1).flatten ∧ L.2 = ((List.range ds.length).map a2).flatten

/-- Files as the plotting tool opens them, with sensor data set afterwards: consistent, every side with a covariate, with the two nominal measurands, every match-up dated. -/
structure PlotFiles [Zero α] [One α] [DecidableEq α] (env : ReadEnv α DateTime) (ds : List (Dataset α)) (sd : SensorData α (SensorModel α DateTime) (AdjModel α)) (mu : MatchUp α DateTime)
    (ms : Evaluable α DateTime) : Prop where
  p_enum : EnumOk env.enumStr
  p_cons : ConsistentFiles ds
  p_cols : ∀ d ∈ ds, 1 ≤ d.s1.m ∧ 1 ≤ d.s2.m
  p_rows : ∀ d ∈ ds, 1 ≤ d.M
  p_shaped : ∀ n, ShapedVar ds n
  p_nominal : ∀ n ∈ ["nominal_measurand1", "nominal_measurand2"], ∃ d ∈ ds, ∃ v, (n, v) ∈ d.vars ∧ v.dims = ["M"]
  p_dates : ∀ d ∈ ds, ∀ i < d.M, (env.toDate (d.time2 i)).Valid
  p_keys : (sd.map (·.1)).Nodup
  p_open : openMatchUp env ds = .ok mu
  p_set : setSensorData defaultAdjustment mu sd = .ok ms

/-- A nominal measurand of all match-ups, as the files give it. -/
def nominalOf [DecidableEq α] (env : ReadEnv α DateTime) (name : String) (ds : List (Dataset α)) : List α := (ds.map (additionalData env name)).flatten

/-- The times of all match-ups (of the second sensor). -/
def timesOf (env : ReadEnv α DateTime) (ds : List (Dataset α)) : List DateTime := (ds.map fun d => (List.range d.M).map fun i => env.toDate (d.time2 i)).flatten

/-- The K values of all match-ups. -/
def valuesK (ds : List (Dataset α)) : List α := (ds.map fun d => (List.range d.M).map d.K).flatten

/-- The names of the two sensors of every series. -/
def pairLabels (between : String) (ds : List (Dataset α)) : List String := ds.map fun d => d.s1.name ++ between ++ d.s2.name

/-! ### Replacing the parameters -/

theorem extractStep_snd {ρ σ : Type} (r : List α × List String) (sensors : List String) : ∀ (sd : SensorData α ρ σ) (s s' : (List α × List String) × (List α × List String)), s.2 = s'.2 →
    ((harmonisedData r sd).foldl (extractStep sensors) s).2 = (sd.foldl (extractStep sensors) s').2
  | [], s, s', h => h
  | e :: sd, s, s', h => by
    unfold harmonisedData
    rw [List.map_cons, List.foldl_cons, List.foldl_cons]
    apply extractStep_snd r sensors sd
    unfold extractStep
    simp only
    split
    · simp only [h]
    · exact h

theorem harmonised_model {ρ σ : Type} (dflt : σ) (r : List α × List String) (sd : SensorData α ρ σ) (s : String) :
    extractModel dflt (harmonisedData r sd) s = extractModel dflt sd s := by
  have : (harmonisedData r sd).find? (fun e => e.1 == s) =
      (sd.find? fun e => e.1 == s).map fun e => (e.1, { e.2 with parameter := selectBy r.1 r.2 e.1 }) := by
    unfold harmonisedData
    rw [List.find?_map]
    rfl
  unfold extractModel SensorData.get
  rw [this]
  cases sd.find? fun e => e.1 == s <;> rfl

/-- Extraction from the sensor data with other parameters. -/
theorem harmonised_extract {ρ σ : Type} {dflt : σ} (r : List α × List String) {sd : SensorData α ρ σ} (hn : (sd.map (·.1)).Nodup) {sensors : List String} {e : Extracted α ρ σ}
    (h : extractSensorData dflt sd sensors = .ok e) : ∃ e', extractSensorData dflt (harmonisedData r sd) sensors = .ok e' ∧ e'.constant = e.constant ∧
      e'.constant_sensor = e.constant_sensor ∧ e'.sensor_model = e.sensor_model ∧ e'.adjustment_model = e.adjustment_model ∧
      ∀ s ∈ sensors, selectBy e'.a e'.a_sensor s = selectBy r.1 r.2 s := by
  have hn' : ((harmonisedData r sd).map (·.1)).Nodup := by
    unfold harmonisedData
    rw [List.map_map]
    exact hn
  unfold extractSensorData at h
  obtain ⟨models, hm, h⟩ := bind_ok.1 h
  rw [pure_ok] at h
  have hs := extractStep_snd r sensors sd (([], []), ([], [])) (([], []), ([], [])) rfl
  have hx : extractSensorData dflt (harmonisedData r sd) sensors = .ok
      { a := ((harmonisedData r sd).foldl (extractStep sensors) (([], []), ([], []))).1.1
        a_sensor := ((harmonisedData r sd).foldl (extractStep sensors) (([], []), ([], []))).1.2
        constant := (sd.foldl (extractStep sensors) (([], []), ([], []))).2.1
        constant_sensor := (sd.foldl (extractStep sensors) (([], []), ([], []))).2.2
        sensor_model := models.map (·.1)
        adjustment_model := models.map (·.2) } := by
    unfold extractSensorData
    refine bind_ok.2 ⟨models, ?_, ?_⟩
    · rw [← hm]
      congr 1
      funext s
      exact harmonised_model dflt r sd s
    · rw [hs]; rfl
  subst h
  refine ⟨_, hx, rfl, rfl, rfl, rfl, ?_⟩
  intro s hsm
  obtain ⟨_, _, _, _, c5, _⟩ := C12_extraction dflt _ hn' sensors _ hx
  obtain ⟨x, hxm, h1, -⟩ := c5 s hsm
  rw [h1]
  unfold harmonisedData at hxm
  obtain ⟨e0, _, he0⟩ := List.mem_map.1 hxm
  have h1 := congrArg Prod.fst he0
  have h2 := congrArg Prod.snd he0
  simp only at h1 h2
  rw [← h2, ← h1]

section
variable [Field α] [DecidableEq α]

/-- Replacing the parameters of the match-up is the same as setting sensor data with those parameters, for every evaluation. -/
theorem withParameters_evaluate {dflt : AdjModel α} {mu : MatchUp α DateTime} {sd : SensorData α (SensorModel α DateTime) (AdjModel α)} (hn : (sd.map (·.1)).Nodup)
    {ms : Evaluable α DateTime} (h : setSensorData dflt mu sd = .ok ms) (r : List α × List String) :
    ∃ ms', setSensorData dflt mu (harmonisedData r sd) = .ok ms' ∧ ∀ arg, evaluateAdjusted (ms.withParameters r.1 r.2) arg = evaluateAdjusted ms' arg := by
  obtain ⟨e, he, rfl⟩ := setSensorData_inv h
  obtain ⟨e', he', h1, h2, h3, h4, h5⟩ := harmonised_extract r hn he
  refine ⟨_, bind_ok.2 ⟨e', he', rfl⟩, ?_⟩
  intro arg
  have hside : ∀ n k, sideMeasurand ((⟨{ mu with idx := mu.idx.withSensorData e }, e.a, e.constant, e.sensor_model, e.adjustment_model⟩ : Evaluable α DateTime).withParameters r.1 r.2) n k =
      sideMeasurand (⟨{ mu with idx := mu.idx.withSensorData e' }, e'.a, e'.constant, e'.sensor_model, e'.adjustment_model⟩ : Evaluable α DateTime) n k := by
    intro n k
    unfold sideMeasurand
    have hp : ∀ name, pyGet mu.idx.sensors k = .ok name → pickLabelled (some r.2) r.1 name = pickLabelled (some e'.a_sensor) e'.a name := by
      intro name hname
      unfold pickLabelled
      simp only
      rw [pick_eq_selectBy, pick_eq_selectBy, h5 name (List.mem_of_getElem? (pyGet_ok.1 hname))]
    change (pyGet mu.idx.sensors k >>= _) = (pyGet mu.idx.sensors k >>= _)
    cases hname : pyGet mu.idx.sensors k with
    | error _ => rfl
    | ok name =>
      have := hp name hname
      simp only [MatchUpS.withParameters, Idx.withSensorData, bind, Except.bind, h1, h2, h3, this]
      rfl
  unfold evaluateAdjusted evaluateMeasurand
  simp only [hside]
  rw [show ((⟨{ mu with idx := mu.idx.withSensorData e }, e.a, e.constant, e.sensor_model, e.adjustment_model⟩ : Evaluable α DateTime).withParameters r.1 r.2).adjustment_model =
    e'.adjustment_model from h4.symm]
  rfl

omit [Field α] [DecidableEq α] in
theorem selectBy_none {ρ σ : Type} {dflt : σ} {mu : MatchUp α DateTime} {sd : SensorData α ρ σ} {ms : MatchUpS α DateTime ρ σ} (h : setSensorData dflt mu sd = .ok ms) :
    ms.mu.idx.parameter_sensor ≠ none := by
  obtain ⟨e, he, rfl⟩ := setSensorData_inv h
  simp [Idx.withSensorData]

/-- Evaluating all adjusted measurands. -/
theorem evaluateAdjusted_files {env : ReadEnv α DateTime} {ds : List (Dataset α)} (hc : ConsistentFiles ds) (hcol : ∀ d ∈ ds, 1 ≤ d.s1.m ∧ 1 ≤ d.s2.m)
    {sd : SensorData α (SensorModel α DateTime) (AdjModel α)} (hn : (sd.map (·.1)).Nodup) {mu : MatchUp α DateTime} (hmu : openMatchUp env ds = .ok mu) {ms : Evaluable α DateTime}
    (hset : setSensorData defaultAdjustment mu sd = .ok ms) {L : List α × List α} (hL : AllMeasurands sd mu ds L) :
    evaluateAdjusted ms (.num 0) = .ok L ∧ L.1.length = (ds.map (·.M)).sum ∧ L.2.length = (ds.map (·.M)).sum := by
  obtain ⟨e, he, rfl⟩ := setSensorData_inv hset
  obtain ⟨y1, y2, a1, a2, hall, hL1, hL2⟩ := hL
  have hr : ∀ n ∈ (List.range ds.length).map (· + 1), 1 ≤ n ∧ n ≤ ds.length := by
    intro n hn
    obtain ⟨i, hi, rfl⟩ := List.mem_map.1 hn
    have := List.mem_range.1 hi
    omega
  obtain ⟨k1, k2, k3, k4, k5⟩ := opened_selection hc hcol hn hmu he mu.original_idx hr (y1 := fun n => y1 (n - 1)) (y2 := fun n => y2 (n - 1)) (by
    intro n hn d hd
    have hn1 : n - 1 + 1 = n := by have := hr n hn; omega
    obtain ⟨h1, h2, -, -⟩ := hall (n - 1) d hd
    rw [hn1] at h1 h2
    exact ⟨h1, h2⟩)
  have hNm : mu.idx.Nm = ds.map (·.M) := by
    obtain ⟨x, mx, hx, hf⟩ := getIdx_facts (openMatchUp_nonempty hmu)
    obtain ⟨x', hx', _, _, _, _, _, _, _, _, _, _, _, hidx, _⟩ := openMatchUp_inv hmu
    rw [hx] at hx'; cases hx'
    rw [hidx]; exact hf.Nm
  have ka : ∀ n ∈ (List.range ds.length).map (· + 1), (a1 (n - 1)).length = (mu.idx.withSensorData e).Nm.getD (n - 1) 0 ∧
      (a2 (n - 1)).length = (mu.idx.withSensorData e).Nm.getD (n - 1) 0 := by
    intro n hn'
    obtain ⟨d, hd, _⟩ := k5 n hn'
    obtain ⟨-, -, ⟨_, _, l1, _⟩, ⟨_, _, l2, _⟩⟩ := hall (n - 1) d hd
    rw [l1, l2]; exact k3 n hn'
  have hmap : ∀ f : Nat → List α, ((List.range ds.length).map (· + 1)).map (fun n => f (n - 1)) = (List.range ds.length).map f := by
    intro f
    rw [List.map_map]
    apply List.map_congr_left
    intro i _
    simp
  have hev := evaluateAdjusted_ok (arg := .num 0) (a1 := fun n => a1 (n - 1)) (a2 := fun n => a2 (n - 1)) (selects_series hc hcol hmu (show SelArg.Selects ds (.num 0) ((List.range ds.length).map (· + 1)) from rfl)) (by
      rw [List.pairwise_map]
      exact List.pairwise_lt_range.imp fun h => by omega) k1 k2 k3 ka k4 (by
    intro n hn'
    obtain ⟨d, hd, s1, s2⟩ := k5 n hn'
    obtain ⟨-, -, q1, q2⟩ := hall (n - 1) d hd
    exact ⟨adjusted_model hn he s1 q1, adjusted_model hn he s2 q2⟩)
  rw [hmap a1, hmap a2, ← hL1, ← hL2] at hev
  have hlen : ∀ f : Nat → List α, (∀ (i : Nat) (d : Dataset α), ds[i]? = some d → (f i).length = d.M) → ((List.range ds.length).map f).flatten.length = (ds.map (·.M)).sum := by
    intro f hf
    rw [List.length_flatten, List.map_map]
    congr 1
    apply List.ext_getElem
    · simp
    · intro i h1 h2
      simp only [List.length_map, List.length_range] at h1
      simp [hf i ds[i] (List.getElem?_eq_getElem h1)]
  refine ⟨hev, ?_, ?_⟩
  · rw [hL1]
    refine hlen a1 fun i d hd => ?_
    obtain ⟨⟨_, _, _, _, _, _, _, _, _, _, hy⟩, -, ⟨_, _, l1, _⟩, -⟩ := hall i d hd
    rw [l1, hy]
  · rw [hL2]
    refine hlen a2 fun i d hd => ?_
    obtain ⟨-, ⟨_, _, _, _, _, _, _, _, _, _, hy⟩, -, ⟨_, _, l1, _⟩⟩ := hall i d hd
    rw [l1, hy]

omit [Field α] [DecidableEq α] in
theorem flatten_sizes {β : Type} {ds : List (Dataset α)} {f : Dataset α → List β} (h : ∀ d ∈ ds, (f d).length = d.M) : (ds.map f).flatten.length = (ds.map (·.M)).sum := by
  rw [List.length_flatten, List.map_map]
  congr 1
  apply List.map_congr_left
  exact h

/-- The object can be used. -/
theorem PlotFiles.ready {env : ReadEnv α DateTime} {ds : List (Dataset α)} {sd : SensorData α (SensorModel α DateTime) (AdjModel α)} {mu : MatchUp α DateTime} {ms : Evaluable α DateTime}
    (hp : PlotFiles env ds sd mu ms) {r : List α × List String} {own harm : List α × List α} (hown : AllMeasurands sd mu ds own) (hharm : AllMeasurands (harmonisedData r sd) mu ds harm) :
    VisReady ms r (ds.map (·.M)) (nominalOf env "nominal_measurand1" ds) (nominalOf env "nominal_measurand2" ds) own harm (timesOf env ds) (pairLabels " - " ds) (pairLabels "_" ds) ∧
    ms.mu.ks = valuesK ds := by
  obtain ⟨p1, p2, p3, p4, p5, p6, p7, p8, hmu, hset⟩ := hp
  obtain ⟨o1, o2, o3⟩ := evaluateAdjusted_files p2 p3 p8 hmu hset hown
  obtain ⟨ms', hset', hev⟩ := withParameters_evaluate p8 hset r
  have hn' : ((harmonisedData r sd).map (·.1)).Nodup := by
    unfold harmonisedData
    rw [List.map_map]
    exact p8
  obtain ⟨q1, q2, q3⟩ := evaluateAdjusted_files p2 p3 hn' hmu hset' hharm
  have hne := openMatchUp_nonempty hmu
  obtain ⟨x, mx, hx, hf⟩ := getIdx_facts hne
  obtain ⟨x', hx', _, hk, _, ⟨t2, ht2, hT2⟩, _, _, _, _, _, _, _, hidx, _⟩ := openMatchUp_inv hmu
  rw [hx] at hx'; cases hx'
  have hK : mu.ks = valuesK ds := by
    unfold openKs at hk
    rw [hf.cNm_last] at hk
    simp only [bind, Except.bind] at hk
    rw [series_ok hf 0 _ (by simp)] at hk
    exact (Except.ok.inj hk).symm
  have hT : t2 = timesOf env ds := by
    unfold openTime at ht2
    rw [hf.cNm_last] at ht2
    simp only [bind, Except.bind] at ht2
    rw [series_ok hf env.dateZero _ (by simp)] at ht2
    cases ht2
    unfold timesOf
    congr 1
    apply List.map_congr_left
    intro d _
    simp [vector]
  obtain ⟨names, hnames, -, hmem⟩ := C07_names env p1 ds mu hmu
  have hnom : ∀ n ∈ ["nominal_measurand1", "nominal_measurand2"], ms.mu.getAdditionalData n none = .ok (nominalOf env n ds) := by
    intro n hn
    have : n ∈ names := (hmem n).2 ⟨by
      simp only [List.mem_cons, List.not_mem_nil, or_false] at hn
      rcases hn with rfl | rfl <;> decide +kernel, p6 n hn⟩
    have h := (C07_values env p1 ds mu hmu p5 names hnames n this).1
    obtain ⟨e, he, rfl⟩ := setSensorData_inv hset
    exact h
  have hsh : ∀ n, ∀ d ∈ ds, (additionalData env n d).length = d.M := by
    intro n d hd
    unfold additionalData
    cases hv : d.var? n with
    | none => simp
    | some v => simp [p5 n d hd v hv]
  have hlab : ∀ b, pairNames ms.mu.idx b = .ok (pairLabels b ds) := by
    intro b
    have hNm : ms.mu.idx.Nm = ds.map (·.M) ∧ ms.mu.idx.Im = mu.idx.Im ∧ ms.mu.idx.sensors = mu.idx.sensors := by
      obtain ⟨e, he, rfl⟩ := setSensorData_inv hset
      refine ⟨?_, rfl, rfl⟩
      change mu.idx.Nm = _
      rw [hidx]; exact hf.Nm
    obtain ⟨hNm, hIm, hS⟩ := hNm
    unfold pairNames pairLabels
    rw [hNm, hIm, hS, List.length_map]
    have : ds.map (fun d => d.s1.name ++ b ++ d.s2.name) = (List.range ds.length).map fun i => (ds[i]?.map fun d => d.s1.name ++ b ++ d.s2.name).getD "" := by
      apply List.ext_getElem
      · simp
      · intro i h1 h2
        simp only [List.length_map] at h1
        simp [h1]
    rw [this]
    apply mapM_ok_of
    intro i hi
    have hi' := List.mem_range.1 hi
    have hd : ds[i]? = some ds[i] := List.getElem?_eq_getElem hi'
    obtain ⟨-, -, -, h4⟩ := C04_sensors_and_pairs env ds mu hmu
    obtain ⟨a, c, h5, h6, h7⟩ := h4 i _ hd
    refine bind_ok.2 ⟨(a, c), pyGet_ok.2 h5, bind_ok.2 ⟨_, pyGet_ok.2 h6, bind_ok.2 ⟨_, pyGet_ok.2 h7, ?_⟩⟩⟩
    rw [hd]; rfl
  have hks : ms.mu.ks = mu.ks ∧ ms.mu.time2 = mu.time2 ∧ ms.mu.idx.cNm = mu.idx.cNm := by
    obtain ⟨e, he, rfl⟩ := setSensorData_inv hset
    exact ⟨rfl, rfl, rfl⟩
  refine ⟨⟨selectBy_none hset, hnom _ (by simp), hnom _ (by simp), by rw [hev]; exact q1, o1,
    ⟨flatten_sizes (hsh _), flatten_sizes (hsh _), o2, o3, q2, q3, by rw [hks.1, hK]; exact flatten_sizes fun d _ => by simp⟩, by rw [hks.2.1, hT2, hT],
    flatten_sizes fun d _ => by simp, by rw [hks.2.2, hidx]; exact hf.cNm, by simpa using hne, hlab _, hlab _, by simp [pairLabels]⟩, by rw [hks.1]; exact hK⟩

/-! ### Monthly means end -/

theorem eventually_all {β : Type} {P : β → Nat → Prop} : ∀ {l : List β}, (∀ a ∈ l, ∃ N, ∀ n, N ≤ n → P a n) → ∃ N, ∀ n, N ≤ n → ∀ a ∈ l, P a n
  | [], _ => ⟨0, fun _ _ a ha => by cases ha⟩
  | a :: l, h => by
    obtain ⟨N, hN⟩ := h a (by simp)
    obtain ⟨N', hN'⟩ := eventually_all (l := l) fun b hb => h b (by simp [hb])
    refine ⟨max N N', fun n hn b hb => ?_⟩
    rcases List.mem_cons.1 hb with rfl | hb
    · exact hN n (le_trans (le_max_left _ _) hn)
    · exact hN' n (le_trans (le_max_right _ _) hn) b hb

/-- What the monthly means of one series should be: for every month in which the series has a match-up strictly after the first minute of the month, the mean over those match-ups. -/
def MonthlyMeans (vals : List α) (times : List DateTime) (out : List (α × DateTime)) : Prop :=
  (out.map (·.2)).Nodup ∧ (∀ t ∈ times, t.floor .month ≠ t → t.floor .month ∈ out.map (·.2)) ∧
    ∀ a s, (a, s) ∈ out → ∃ js : List Nat, js ≠ [] ∧ js.Nodup ∧ (∀ j, j ∈ js ↔ ∃ t, times[j]? = some t ∧ t.floor .month = s ∧ t ≠ s) ∧
      a = (js.map fun j => vals.getD j 0).sum / js.length

theorem monthlyMeans_ok {vals : List α} {times : List DateTime} (hne : times ≠ []) (hv : ∀ t ∈ times, t.Valid) (hl : vals.length = times.length) :
    ∃ out, MonthlyMeans vals times out ∧ ∃ N, ∀ fuel, N ≤ fuel → monthlyMeans fuel vals times = .ok out := by
  obtain ⟨out, N, h1, h2, h3, h4⟩ := C51_periods_partial .month hne hv hl
  refine ⟨out.filterMap fun e => e.1.map fun a => (a, e.2), ?_, N, ?_⟩
  · have hmem : ∀ a s, (a, s) ∈ (out.filterMap fun e => e.1.map fun a => (a, e.2)) ↔ (some a, s) ∈ out := by
      intro a s
      rw [List.mem_filterMap]
      constructor
      · rintro ⟨⟨b, s'⟩, hm, he⟩
        cases b with
        | none => cases he
        | some b =>
          simp only [Option.map_some, Option.some.injEq, Prod.mk.injEq] at he
          obtain ⟨rfl, rfl⟩ := he
          exact hm
      · intro hm
        exact ⟨_, hm, rfl⟩
    refine ⟨?_, ?_, ?_⟩
    · clear h1 h3 h4 hmem
      induction out with
      | nil => simp
      | cons e out ih =>
        rw [List.map_cons, List.nodup_cons] at h2
        rw [List.filterMap_cons]
        cases he : e.1 with
        | none => simpa using ih h2.2
        | some a =>
          simp only [Option.map_some, List.map_cons, List.nodup_cons]
          refine ⟨?_, ih h2.2⟩
          intro hmem
          obtain ⟨p, hp, hp'⟩ := List.mem_map.1 hmem
          rw [List.mem_filterMap] at hp
          obtain ⟨q, hq, hq'⟩ := hp
          cases hqe : q.1 with
          | none => rw [hqe] at hq'; cases hq'
          | some b =>
            rw [hqe] at hq'
            simp only [Option.map_some, Option.some.injEq] at hq'
            subst hq'
            exact h2.1 (List.mem_map.2 ⟨q, hq, hp'⟩)
    · intro t ht hf
      obtain ⟨⟨avg, s⟩, hm, hs⟩ := List.mem_map.1 (h3 t ht)
      simp only at hs
      subst hs
      obtain ⟨js, _, hj2, hj3⟩ := h4 _ _ hm
      obtain ⟨j, hj⟩ := List.mem_iff_getElem?.1 ht
      have hjm : j ∈ js := (hj2 j).2 ⟨t, hj, rfl, Ne.symm hf⟩
      cases js with
      | nil => cases hjm
      | cons j0 js =>
        unfold pyAverage at hj3
        rw [if_neg (by simp)] at hj3
        rw [hj3] at hm
        exact List.mem_map.2 ⟨_, (hmem _ _).2 hm, rfl⟩
    · intro a s hm
      obtain ⟨js, hj1, hj2, hj3⟩ := h4 _ _ ((hmem a s).1 hm)
      refine ⟨js, ?_, hj1, hj2, ?_⟩
      · rintro rfl
        simp [pyAverage] at hj3
      · cases js with
        | nil => simp [pyAverage] at hj3
        | cons j0 js =>
          unfold pyAverage at hj3
          rw [if_neg (by simp), Option.some.injEq] at hj3
          rw [hj3]
          simp
  · intro fuel hfuel
    unfold monthlyMeans
    exact bind_ok.2 ⟨_, h1 fuel hfuel, rfl⟩

end
end Verif
