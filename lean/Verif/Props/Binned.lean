import Verif.Lemmas.BinnedFiles
/-
C81: plots over binned covariates and binned additional variables.
-/
set_option autoImplicit false
set_option linter.unusedSectionVars false
namespace Verif
variable {α : Type} [Field α] [LinearOrder α] [IsStrictOrderedRing α]

section
variable {env : ReadEnv α DateTime} {ds : List (Dataset α)} {sd : SensorData α (SensorModel α DateTime) (AdjModel α)} {mu : MatchUp α DateTime} {ms : Evaluable α DateTime}
  {r : List α × List String} {own harm : List α × List α} {draw : Nat → Nat → Nat → List Nat}
  {top : Nat} {lo hi : Nat → Nat → α} {Lo Hi : Nat → α} {given : VariableNames} {xn xl : Nat → Nat → String}

/-- The numbers of all series. -/
def allNumbers (ds : List (Dataset α)) : List Nat := (List.range ds.length).map (· + 1)

theorem allNumbers_mem {n : Nat} : n ∈ allNumbers ds ↔ 1 ≤ n ∧ n ≤ ds.length := by
  unfold allNumbers
  rw [List.mem_map]
  constructor
  · rintro ⟨i, hi, rfl⟩
    have := List.mem_range.1 hi
    omega
  · rintro ⟨h1, h2⟩
    exact ⟨n - 1, List.mem_range.2 (by omega), by omega⟩

/-! ### C81: covariates -/

/-- **C81 (partial), covariates.** For opened files, when every covariate of every second sensor varies within its series and no first sensor has more covariates than all second sensors, the
plots of `Y` over the covariates are: for every covariate, one for every series whose second sensor has it, and one of all such series. Missing: the error bars (`C81_error_bars_wrong`), the
legends (`C81_legend_shifted`) and the other files, for which there is no plot at all (`C81_constant_covariate`, `C81_first_sensor_larger`). -/
theorem C81_covariates_partial (sqrt : α → α) (hp : PlotFiles env ds sd mu ms) (ht : MostCovariates ds top) (h2 : ∃ d ∈ ds, d.s2.m = top) (hr : PlotRanges ds top lo hi Lo Hi)
    (hn : PlotNames given ds top xn xl) (hv : ∀ (i : Nat) (d : Dataset α), ds[i]? = some d → ∀ c < d.s2.m, lo i c < hi i c) (title fname : String) {Y : List α}
    (hY : Y.length = (ds.map (·.M)).sum) :
    binnedX sqrt ms.mu given (pairLabels " - " ds) (pairLabels "_" ds) title fname Y none = .ok (plotsOverCovariates sqrt ds top xn xl title fname Y lo hi Lo Hi (allNumbers ds)) := by
  have hb := hp.binReady ht
  refine binnedX_ok sqrt hb hr hn hY title fname (allSeries hb) (fun n hn' => allNumbers_mem.1 hn') (by simp [allNumbers]) (fun n hn' d hd c hc => hv _ d hd c hc) ?_
  intro c hc
  obtain ⟨d, hd, hm⟩ := h2
  obtain ⟨i, hi⟩ := List.getElem?_of_mem hd
  exact ⟨i + 1, allNumbers_mem.2 ⟨by omega, (List.getElem?_eq_some_iff.1 hi).1⟩, d, hi, by omega⟩

/-- The same when the series are chosen: the labels of the plots are by position among the chosen series, not by series. -/
theorem C81_chosen_series (sqrt : α → α) (hp : PlotFiles env ds sd mu ms) (ht : MostCovariates ds top) (hr : PlotRanges ds top lo hi Lo Hi)
    (hn : PlotNames given ds top xn xl) {mus : List Nat} (hmem : ∀ n ∈ mus, 1 ≤ n ∧ n ≤ ds.length) (hlen : mus.length ≤ ds.length)
    (hv : ∀ n ∈ mus, ∀ d, ds[n - 1]? = some d → ∀ c < d.s2.m, lo (n - 1) c < hi (n - 1) c) (hsome : ∀ c < top, ∃ n ∈ mus, ∃ d, ds[n - 1]? = some d ∧ c < d.s2.m)
    (title fname : String) {Y : List α} (hY : Y.length = (ds.map (·.M)).sum) :
    binnedX sqrt ms.mu given (pairLabels " - " ds) (pairLabels "_" ds) title fname Y (some mus) = .ok (plotsOverCovariates sqrt ds top xn xl title fname Y lo hi Lo Hi mus) :=
  binnedX_ok sqrt (hp.binReady ht) hr hn hY title fname rfl hmem hlen hv hsome

/-- **C81, what is in the plot of one series:** named after the covariate and the two sensors, labelled with the two sensors, it shows for every one of 50 bins between the least and the
greatest value of the covariate in the series that holds a match-up the mean of `Y` over the match-ups of the bin, at the centre of the bin. -/
theorem C81_own_plot (sqrt : α → α) {i c : Nat} {d : Dataset α} (hd : ds[i]? = some d) (hc : c < top) (hcm : c < d.s2.m) (title fname : String) (Y : List α) :
    ∃ p ∈ plotsOverCovariates sqrt ds top xn xl title fname Y lo hi Lo Hi (allNumbers ds),
      p.file = fname ++ "." ++ xn i c ++ "_" ++ d.s2.name ++ "_binned." ++ d.s1.name ++ "_" ++ d.s2.name ++ ".pdf" ∧
      p.xlabel = "$" ++ xl i c ++ "$ (Binned) - " ++ d.s2.name ∧ p.ylabel = title ++ " (" ++ d.s1.name ++ " - " ++ d.s2.name ++ ")" ∧
      ∃ pts, p.lines = [("__nolegend__", pts)] ∧
        pts.map (fun q => (q.1, q.2.1)) = (binnedPoints sqrt d.M (fun r => d.s2.X r c) (valueIn ds Y i) (lo i c) (hi i c)).map fun q => (q.1, q.2.1) := by
  have hlt := (List.getElem?_eq_some_iff.1 hd).1
  have hz : (i + 1, i) ∈ (allNumbers ds).zipIdx := by
    unfold allNumbers
    rw [range_zipIdx]
    exact List.mem_map.2 ⟨i, List.mem_range.2 hlt, rfl⟩
  have hl : (pairLabels " - " ds).getD i "" = d.s1.name ++ " - " ++ d.s2.name := by
    have := pyGet_ok.1 (pairLabels_get (b := " - ") hd)
    simp [List.getD, this]
  obtain ⟨p, hpl⟩ : ∃ p : Drawn α, seriesPlot sqrt ds xn xl title fname Y lo hi c (i + 1, i) = some p := by
    unfold seriesPlot
    simp only [Nat.add_sub_cancel, hd, Option.bind_some, hcm, if_true]
    exact ⟨_, rfl⟩
  refine ⟨p, List.mem_flatMap.2 ⟨c, List.mem_range.2 hc, List.mem_append_left _ (List.mem_filterMap.2 ⟨(i + 1, i), hz, hpl⟩)⟩, ?_⟩
  unfold seriesPlot at hpl
  simp only [Nat.add_sub_cancel, hd, Option.bind_some, hcm, if_true] at hpl
  obtain rfl := Option.some.inj hpl
  refine ⟨?_, ?_, ?_, _, rfl, ?_⟩
  · simp only [String.append_assoc]
  · simp only [String.append_assoc]; rfl
  · simp only [hl, String.append_assoc]
  · unfold withFirstError
    rw [List.map_map]
    rfl

/-- **C81, legend.** When the second sensors of all series have the covariate, the plot of all series shows every series under its own name, over the whole range of the covariate. -/
theorem C81_legend_right (sqrt : α → α) {c : Nat} (hall : ∀ d ∈ ds, c < d.s2.m) (title fname : String) (Y : List α) :
    (allSeriesPlot sqrt ds xn xl title fname Y Lo Hi c (allNumbers ds)).lines =
      ds.zipIdx.map fun p => (p.1.s1.name ++ " - " ++ p.1.s2.name, binnedPoints sqrt p.1.M (fun r => p.1.s2.X r c) (valueIn ds Y p.2) (Lo c) (Hi c)) := by
  have hf : ((allNumbers ds).filterMap fun n => seriesPoints sqrt ds Y c (n - 1) (Lo c) (Hi c)) =
      ds.zipIdx.map fun p => binnedPoints sqrt p.1.M (fun r => p.1.s2.X r c) (valueIn ds Y p.2) (Lo c) (Hi c) := by
    unfold allNumbers
    rw [List.filterMap_map]
    obtain ⟨g, hg⟩ : ∃ g : Nat → List (α × α × Option α), ∀ (i : Nat) (d : Dataset α), ds[i]? = some d → g i = binnedPoints sqrt d.M (fun r => d.s2.X r c) (valueIn ds Y i) (Lo c) (Hi c) :=
      ⟨fun i => (seriesPoints sqrt ds Y c i (Lo c) (Hi c)).getD [], fun i d hd => by
        simp only [seriesPoints, hd, Option.bind_some, if_pos (hall d (List.mem_of_getElem? hd)), Option.getD_some]⟩
    have e : (List.range ds.length).filterMap ((fun n => seriesPoints sqrt ds Y c (n - 1) (Lo c) (Hi c)) ∘ fun x => x + 1) = (List.range ds.length).filterMap (some ∘ g) := by
      apply List.filterMap_congr
      intro i hi'
      obtain ⟨d, hd⟩ : ∃ d, ds[i]? = some d := ⟨_, List.getElem?_eq_getElem (List.mem_range.1 hi')⟩
      simp only [Function.comp_apply, Nat.add_sub_cancel, seriesPoints, hd, Option.bind_some, if_pos (hall d (List.mem_of_getElem? hd)), hg i d hd]
    rw [e, List.filterMap_eq_map]
    apply List.ext_getElem
    · simp
    · intro i g1 g2
      simp only [List.length_map, List.length_zipIdx] at g2
      simp only [List.getElem_map, List.getElem_range, List.getElem_zipIdx, Nat.zero_add]
      exact hg i _ (List.getElem?_eq_getElem g2)
  show List.map _ _ = _
  rw [hf]
  apply List.ext_getElem
  · simp
  · intro i g1 g2
    simp only [List.length_map, List.length_zipIdx] at g2
    simp [pairLabels, List.getD, g2]

/-- **C81 is false of the legend:** when the second sensor of the first series has fewer covariates than that of the second series, the plot of all series over a covariate that only the
latter has shows the values of the second series under the name of the first. -/
theorem C81_legend_shifted (sqrt : α → α) {c : Nat} {d0 d1 : Dataset α} {rest : List (Dataset α)} (hds : ds = d0 :: d1 :: rest) (h0 : d0.s2.m ≤ c) (h1 : c < d1.s2.m)
    (title fname : String) (Y : List α) :
    (allSeriesPlot sqrt ds xn xl title fname Y Lo Hi c (allNumbers ds)).lines.head? =
      some (d0.s1.name ++ " - " ++ d0.s2.name, binnedPoints sqrt d1.M (fun r => d1.s2.X r c) (valueIn ds Y 1) (Lo c) (Hi c)) := by
  have hn : allNumbers ds = 1 :: 2 :: (List.range rest.length).map (· + 3) := by
    unfold allNumbers
    rw [hds]
    simp only [List.length_cons, List.range_succ_eq_map, List.map_cons, List.map_map]
    rfl
  show (List.map _ _).head? = _
  rw [hn]
  have e0 : seriesPoints sqrt ds Y c (1 - 1) (Lo c) (Hi c) = none := by
    unfold seriesPoints
    rw [hds]
    simp [Nat.not_lt.2 h0]
  have e1 : seriesPoints sqrt ds Y c (2 - 1) (Lo c) (Hi c) = some (binnedPoints sqrt d1.M (fun r => d1.s2.X r c) (valueIn ds Y 1) (Lo c) (Hi c)) := by
    unfold seriesPoints
    rw [hds]
    simp [h1]
  rw [List.filterMap_cons, e0, List.filterMap_cons, e1]
  simp only [List.zipIdx_cons, List.map_cons, List.head?_cons, pairLabels, hds]
  rfl

/-! ### Failures -/

theorem mapM_part {β γ : Type} {f : β → Py γ} {l : List β} {out : List γ} (h : l.mapM f = .ok out) {a : β} (ha : a ∈ l) : ∃ b, f a = .ok b := by
  obtain ⟨i, hi⟩ := List.getElem?_of_mem ha
  obtain ⟨b, hb, -⟩ := (mapM_ok_get h).2 i a hi
  exact ⟨b, hb⟩

/-- What a successful run of the plots over the covariates implies. -/
theorem binnedX_inv {sqrt : α → α} {labels suffixes : List String} {title fname : String} {Y : List α} {mus : Option (List Nat)} {out : List (Drawn α)}
    (h : binnedX sqrt mu given labels suffixes title fname Y mus = .ok out) : ∃ series top, chosenSeries mu.idx mus = .ok series ∧ pyMax mu.idx.sensor_ms = .ok top ∧
      ∀ c < top, ∃ range, covariateRanges mu = .ok range ∧ ∃ g, pyGet range c = .ok g ∧
        ∀ p ∈ series.zipIdx, ∃ t, covariateTurn sqrt mu given labels suffixes title fname Y (c + 1) g p = .ok t := by
  unfold binnedX at h
  obtain ⟨series, h1, h⟩ := bind_ok.1 h
  obtain ⟨top, h2, h⟩ := bind_ok.1 h
  obtain ⟨plots, h3, h⟩ := bind_ok.1 h
  refine ⟨series, top, h1, h2, fun c hc => ?_⟩
  obtain ⟨b, hb⟩ := mapM_part h3 (List.mem_range.2 hc)
  obtain ⟨range, r1, hb⟩ := bind_ok.1 hb
  obtain ⟨g, r2, hb⟩ := bind_ok.1 hb
  obtain ⟨turns, r3, hb⟩ := bind_ok.1 hb
  exact ⟨range, r1, g, r2, fun p hp => mapM_part r3 hp⟩

/-- **C81 is false of a constant covariate:** when a covariate of the second sensor of a series has one value throughout the series, the plots of all covariates of all series fail. -/
theorem C81_constant_covariate (sqrt : α → α) (hp : PlotFiles env ds sd mu ms) (ht : MostCovariates ds top) {i c : Nat} {d : Dataset α} (hd : ds[i]? = some d) (hc : c < d.s2.m)
    (hconst : ∀ r < d.M, d.s2.X r c = d.s2.X 0 c) (given : VariableNames) (title fname : String) {Y : List α} (hY : Y.length = (ds.map (·.M)).sum) :
    ∃ e, binnedX sqrt ms.mu given (pairLabels " - " ds) (pairLabels "_" ds) title fname Y none = .error e := by
  cases hx : binnedX sqrt ms.mu given (pairLabels " - " ds) (pairLabels "_" ds) title fname Y none with
  | error e => exact ⟨e, rfl⟩
  | ok out =>
    exfalso
    have hb := hp.binReady ht
    obtain ⟨series, top', h1, h2, h3⟩ := binnedX_inv hx
    rw [allSeries hb] at h1
    cases h1
    rw [hb.b_top] at h2
    cases h2
    have hlt := (List.getElem?_eq_some_iff.1 hd).1
    have hl : (ds.map (·.M)).length = ds.length := by simp
    obtain ⟨range, -, g, -, h3⟩ := h3 c (lt_of_lt_of_le hc (ht.1 d (List.mem_of_getElem? hd)).2)
    obtain ⟨t, h3⟩ := h3 (i + 1, i) (by rw [range_zipIdx]; exact List.mem_map.2 ⟨i, List.mem_range.2 hlt, rfl⟩)
    unfold covariateTurn at h3
    obtain ⟨i1, a1, h3⟩ := bind_ok.1 h3
    obtain ⟨i2, a2, h3⟩ := bind_ok.1 h3
    obtain ⟨s, a3, h3⟩ := bind_ok.1 h3
    obtain ⟨name, a4, h3⟩ := bind_ok.1 h3
    obtain ⟨label, a5, h3⟩ := bind_ok.1 h3
    obtain ⟨fn, a6, h3⟩ := bind_ok.1 h3
    simp only [Nat.add_sub_cancel] at a1 a2 a3 h3
    rw [hb.b_second i d hd] at a3
    cases a3
    rw [hb.b_cNm, pyGet_prefixSums _ (by omega)] at a1 a2
    cases a1; cases a2
    rw [if_pos (show c + 1 ≤ d.s2.m by omega)] at h3
    obtain ⟨X, a7, h3⟩ := bind_ok.1 h3
    rw [hb.b_data i d hd c hc] at a7
    cases a7
    obtain ⟨own, a8, h3⟩ := bind_ok.1 h3
    obtain ⟨glo, ghi⟩ := g
    rcases glo with _ | glo
    · cases h3
    rcases ghi with _ | ghi
    · cases h3
    obtain ⟨r, a9, h3⟩ := bind_ok.1 h3
    rw [slice_values hY hd, List.map_map] at a9
    obtain ⟨e, he⟩ := binSeries_constant sqrt (M := d.M) (x := fun r => some (d.s2.X r c)) (y := valueIn ds Y i) (fun r hr => by simp only [hconst r hr]) (some glo) (some ghi)
    rw [show (List.range d.M).map (some ∘ fun r => d.s2.X r c) = (List.range d.M).map fun r => some (d.s2.X r c) from rfl, he] at a9
    cases a9

/-- **C81 is false of larger first sensors:** when a sensor that is never the second of a pair has more covariates than every second sensor, the plots of all covariates fail. -/
theorem C81_first_sensor_larger (sqrt : α → α) (hp : PlotFiles env ds sd mu ms) (ht : MostCovariates ds top) (hlt : ∀ d ∈ ds, d.s2.m < top) (given : VariableNames) (labels suffixes : List String)
    (title fname : String) (Y : List α) (mus : Option (List Nat)) : ∃ e, binnedX sqrt ms.mu given labels suffixes title fname Y mus = .error e := by
  cases hx : binnedX sqrt ms.mu given labels suffixes title fname Y mus with
  | error e => exact ⟨e, rfl⟩
  | ok out =>
    exfalso
    have hb := hp.binReady ht
    obtain ⟨series, top', h1, h2, h3⟩ := binnedX_inv hx
    rw [hb.b_top] at h2
    cases h2
    have hpos : 0 < top := by
      obtain ⟨-, d, hd, -⟩ := ht
      have := hlt d hd
      omega
    obtain ⟨range, hr, -⟩ := h3 (top - 1) (by omega)
    unfold covariateRanges at hr
    obtain ⟨t, r1, hr⟩ := bind_ok.1 hr
    rw [hb.b_top] at r1
    cases r1
    obtain ⟨n, r2, hr⟩ := bind_ok.1 hr
    rw [hb.b_series] at r2
    cases r2
    obtain ⟨b, hb'⟩ := mapM_part hr (List.mem_range.2 (show top - 1 < top by omega))
    obtain ⟨l, hl, hb'⟩ := bind_ok.1 hb'
    obtain ⟨m, hm, -⟩ := bind_ok.1 hb'
    have hnone : l.filterMap id = [] := by
      rw [List.filterMap_eq_nil_iff]
      intro q hq
      obtain ⟨i, hi⟩ := List.getElem?_of_mem hq
      obtain ⟨g1, g2⟩ := mapM_ok_get hl
      have hil : i < ds.length := by
        have := (List.getElem?_eq_some_iff.1 hi).1
        rw [g1, List.length_range] at this
        exact this
      obtain ⟨b, hb1, hb2⟩ := g2 i i (by rw [List.getElem?_range hil])
      rw [hi] at hb2
      cases hb2
      obtain ⟨d, hd⟩ : ∃ d, ds[i]? = some d := ⟨_, List.getElem?_eq_getElem hil⟩
      obtain ⟨s, s1, s2⟩ := bind_ok.1 hb1
      rw [hb.b_second i d hd] at s1
      cases s1
      have := hlt d (List.mem_of_getElem? hd)
      rw [if_neg (show ¬ top - 1 + 1 ≤ d.s2.m by omega)] at s2
      cases s2
      rfl
    rw [hnone] at hm
    cases hm

/-- **C81 is false of short lists of names:** when the sensor data name fewer covariates for a second sensor than the sensor with the most covariates has, the plots of all covariates fail. -/
theorem C81_names_too_short (sqrt : α → α) (hp : PlotFiles env ds sd mu ms) (ht : MostCovariates ds top) {i : Nat} {d : Dataset α} (hd : ds[i]? = some d) {l : List String}
    (hl : given.names d.s2.name = some l ∨ given.labels d.s2.name = some l) (hlt : l.length < top) (labels suffixes : List String)
    (title fname : String) (Y : List α) : ∃ e, binnedX sqrt ms.mu given labels suffixes title fname Y none = .error e := by
  cases hx : binnedX sqrt ms.mu given labels suffixes title fname Y none with
  | error e => exact ⟨e, rfl⟩
  | ok out =>
    exfalso
    have hb := hp.binReady ht
    obtain ⟨series, top', h1, h2, h3⟩ := binnedX_inv hx
    rw [allSeries hb] at h1
    cases h1
    rw [hb.b_top] at h2
    cases h2
    have hil := (List.getElem?_eq_some_iff.1 hd).1
    obtain ⟨range, -, g, -, h3⟩ := h3 (top - 1) (by omega)
    obtain ⟨t, h3⟩ := h3 (i + 1, i) (by rw [range_zipIdx]; exact List.mem_map.2 ⟨i, List.mem_range.2 hil, rfl⟩)
    unfold covariateTurn at h3
    obtain ⟨i1, a1, h3⟩ := bind_ok.1 h3
    obtain ⟨i2, a2, h3⟩ := bind_ok.1 h3
    obtain ⟨s, a3, h3⟩ := bind_ok.1 h3
    obtain ⟨name, a4, h3⟩ := bind_ok.1 h3
    obtain ⟨label, a5, h3⟩ := bind_ok.1 h3
    simp only [Nat.add_sub_cancel] at a3
    rw [hb.b_second i d hd] at a3
    cases a3
    have hno : ∀ x : String, pyGet l (top - 1 + 1 - 1) ≠ .ok x := by
      intro x hx
      have := (List.getElem?_eq_some_iff.1 (pyGet_ok.1 hx)).1
      omega
    unfold covariateName at a4 a5
    rcases hl with hl | hl
    · rw [hl] at a4
      exact hno _ a4
    · rw [hl] at a5
      exact hno _ a5

/-! ### C81: additional variables -/

/-- The values of an additional variable `n` are numbers; `lo i`, `hi i` are its range in series `i`, in which it varies, and `Lo`, `Hi` its whole range. -/
structure VariableRanges (ds : List (Dataset α)) (isNan : α → Bool) (x : List α) (lo hi : Nat → α) (Lo Hi : α) : Prop where
  v_number : ∀ v ∈ x, isNan v = false
  v_own : ∀ (i : Nat) (d : Dataset α), ds[i]? = some d → RangeOf d.M (valueIn ds x i) (lo i) (hi i) ∧ lo i < hi i
  v_all : (∀ v ∈ x, Lo ≤ v ∧ v ≤ Hi) ∧ Lo ∈ x ∧ Hi ∈ x

theorem map_numbers {isNan : α → Bool} {x : List α} (h : ∀ v ∈ x, isNan v = false) : (x.map fun v => if isNan v then none else some v) = x.map some := by
  apply List.map_congr_left
  intro v hv
  rw [h v hv]
  rfl

theorem additional_length (hp : PlotFiles env ds sd mu ms) (n : String) : (nominalOf env n ds).length = (ds.map (·.M)).sum := by
  unfold nominalOf
  rw [List.length_flatten, List.map_map]
  congr 1
  apply List.map_congr_left
  intro d hd
  show (additionalData env n d).length = d.M
  unfold additionalData
  cases hv : d.var? n with
  | none => simp
  | some v => simp [hp.p_shaped n d hd v hv]

/-- **C81 (partial), additional variables.** For opened files, the plots of `Y` over an additional variable of numbers that vary within every series: one for every series and one of all series.
Missing: the error bars, and the other variables, for which there is no plot at all (`C81_missing_variable`). -/
theorem C81_additional_partial (sqrt : α → α) (hp : PlotFiles env ds sd mu ms) (ht : MostCovariates ds top) {n : String} {isNan : α → Bool} {alo ahi : Nat → α} {aLo aHi : α}
    (hx : VariableRanges ds isNan (nominalOf env n ds) alo ahi aLo aHi) (title fname : String) {Y : List α} (hY : Y.length = (ds.map (·.M)).sum) :
    binnedAdditional sqrt ms.mu.idx (pairLabels " - " ds) (pairLabels "_" ds) n n title fname Y ((nominalOf env n ds).map fun v => if isNan v then none else some v) none =
      .ok (plotsOverVariable sqrt ds n title fname Y (nominalOf env n ds) alo ahi aLo aHi) := by
  have hne : ds ≠ [] := openMatchUp_nonempty hp.p_open
  rw [map_numbers hx.v_number]
  exact binnedAdditional_ok sqrt (hp.binReady ht) hne hY (additional_length hp n) n title fname hx.v_own hx.v_all

/-- Nothing can be drawn over a variable that is everywhere the same. -/
theorem binSeries_replicate (sqrt : α → α) (Y : List α) (M : Nat) (v Lo Hi : Option α) : ∃ e, binSeries sqrt Y (List.replicate M v) Lo Hi = .error e := by
  cases hb : binSeries sqrt Y (List.replicate M v) Lo Hi with
  | error e => exact ⟨e, rfl⟩
  | ok out =>
    exfalso
    unfold binSeries at hb
    obtain ⟨a, h1, hb⟩ := bind_ok.1 hb
    obtain ⟨b, h2, hb⟩ := bind_ok.1 hb
    obtain ⟨own, h3, hb⟩ := bind_ok.1 hb
    obtain ⟨pts, h4, hb⟩ := bind_ok.1 hb
    have hfold : ∀ (f : Option α → Option α → Option α) (n : Nat), (∀ v, f v v = v) → (List.replicate n v).foldl f v = v := by
      intro f n hf
      induction n with
      | zero => rfl
      | succ n ih => rw [List.replicate_succ, List.foldl_cons, hf]; exact ih
    have hsame : ∀ v : Option α, nanLt v v = false := by
      intro v
      cases v <;> simp [nanLt]
    have hab : a = v ∧ b = v := by
      cases M with
      | zero => cases h1
      | succ M =>
        rw [List.replicate_succ] at h1 h2
        have e1 := Except.ok.inj h1
        have e2 := Except.ok.inj h2
        rw [hfold _ M (fun v => by simp)] at e1
        rw [hfold _ M (fun v => by simp)] at e2
        exact ⟨e1.symm, e2.symm⟩
    rw [hab.1, hab.2] at h3
    have hedge : ∀ e ∈ binEdgesNan v v 50, e = v := by
      intro e he
      unfold binEdgesNan at he
      obtain ⟨i, -, rfl⟩ := List.mem_map.1 he
      cases v <;> simp
    have hempty : ∀ ab ∈ (binEdgesNan v v 50).zip (binEdgesNan v v 50).tail, ((whereIdx (List.replicate M v) fun x => nanLe ab.1 x && nanLt x ab.2).mapM (pyGet Y)) = .ok [] := by
      rintro ⟨e1, e2⟩ hm
      have q2 := hedge e2 (List.mem_of_mem_tail (List.of_mem_zip hm).2)
      have : (whereIdx (List.replicate M v) fun x => nanLe e1 x && nanLt x e2) = [] := by
        unfold whereIdx
        rw [List.map_eq_nil_iff, List.filter_eq_nil_iff]
        rintro ⟨x, i⟩ hx
        have hx' := List.mem_of_getElem? (List.mem_zipIdx_iff_getElem?.1 hx)
        have := List.eq_of_mem_replicate hx'
        simp only at this
        simp only [this, q2, hsame, Bool.and_false, Bool.false_eq_true, not_false_eq_true]
      simp only [this]
      rfl
    unfold binNan at h3
    obtain ⟨vals, h5, h3⟩ := bind_ok.1 h3
    rw [mapM_ok_of (g := fun _ => []) hempty] at h5
    cases h5
    cases h3
    have : ∀ (L : List (Option α × Option α)) (c : Option α × Option α → Option α), numericPoints ((L.map fun _ => ([] : List α)).map pyAverage) (L.map c) ((L.map fun _ => ([] : List α)).map (pyStd sqrt)) = [] := by
      intro L c
      rw [List.map_map, List.map_map, numericPoints_map, List.filterMap_eq_nil_iff]
      intro p _
      cases c p <;> simp [pyAverage]
    unfold plotArray at h4
    simp only [this] at h4
    cases h4

/-- The plots over a variable with one value (or `nan`) throughout a series fail. -/
theorem binnedAdditional_constant (sqrt : α → α) (hb : BinReady ds top mu) {labels suffixes : List String} {xName xLabel title fname : String} {Y : List α} {x : List (Option α)} {i : Nat}
    {d : Dataset α} (hd : ds[i]? = some d) {v : Option α} (hx : slice x ((ds.map (·.M)).take i).sum ((ds.map (·.M)).take (i + 1)).sum = List.replicate d.M v) :
    ∃ e, binnedAdditional sqrt mu.idx labels suffixes xName xLabel title fname Y x none = .error e := by
  cases hq : binnedAdditional sqrt mu.idx labels suffixes xName xLabel title fname Y x none with
  | error e => exact ⟨e, rfl⟩
  | ok out =>
    exfalso
    unfold binnedAdditional at hq
    obtain ⟨a, h1, hq⟩ := bind_ok.1 hq
    obtain ⟨b, h2, hq⟩ := bind_ok.1 hq
    obtain ⟨series, h3, hq⟩ := bind_ok.1 hq
    obtain ⟨turns, h4, hq⟩ := bind_ok.1 hq
    rw [allSeries hb] at h3
    cases h3
    have hlt := (List.getElem?_eq_some_iff.1 hd).1
    have hl : (ds.map (·.M)).length = ds.length := by simp
    obtain ⟨t, ht⟩ := mapM_part h4 (a := (i + 1, i)) (by rw [range_zipIdx]; exact List.mem_map.2 ⟨i, List.mem_range.2 hlt, rfl⟩)
    unfold additionalTurn at ht
    obtain ⟨i1, a1, ht⟩ := bind_ok.1 ht
    obtain ⟨i2, a2, ht⟩ := bind_ok.1 ht
    obtain ⟨s, a3, ht⟩ := bind_ok.1 ht
    obtain ⟨fn, a4, ht⟩ := bind_ok.1 ht
    obtain ⟨own, a5, ht⟩ := bind_ok.1 ht
    obtain ⟨q, a6, ht⟩ := bind_ok.1 ht
    simp only [Nat.add_sub_cancel] at a1 a2
    rw [hb.b_cNm, pyGet_prefixSums _ (by omega)] at a1 a2
    cases a1; cases a2
    rw [hx] at a6
    obtain ⟨e, he⟩ := binSeries_replicate sqrt (slice Y ((ds.map (·.M)).take i).sum ((ds.map (·.M)).take (i + 1)).sum) d.M v a b
    rw [he] at a6
    cases a6

theorem series_constant (hp : PlotFiles env ds sd mu ms) {n : String} {i : Nat} {d : Dataset α} (hd : ds[i]? = some d) {a : α} (ha : ∀ v ∈ additionalData env n d, v = a) (f : α → Option α) :
    slice ((nominalOf env n ds).map f) ((ds.map (·.M)).take i).sum ((ds.map (·.M)).take (i + 1)).sum = List.replicate d.M (f a) := by
  have hlen : ∀ e ∈ ds, (additionalData env n e).length = e.M := by
    intro e he
    unfold additionalData
    cases hv : e.var? n with
    | none => simp
    | some v => simp [hp.p_shaped n e he v hv]
  have h1 : slice (nominalOf env n ds) ((ds.map (·.M)).take i).sum ((ds.map (·.M)).take (i + 1)).sum = additionalData env n d := series_slice _ hlen hd
  rw [slice_map, h1, List.eq_replicate_iff]
  refine ⟨by rw [List.length_map, hlen d (List.mem_of_getElem? hd)], ?_⟩
  intro b hb
  obtain ⟨v, hv, rfl⟩ := List.mem_map.1 hb
  rw [ha v hv]

/-! ### C81: the plotting tool -/

instance visM_lawful : LawfulMonad (VisM α) := LawfulMonad.mk'
  (id_map := by
    intro β x
    funext v
    show VisM.andThen x _ v = _
    unfold VisM.andThen
    rcases x v with ⟨o | o, v'⟩ <;> rfl)
  (pure_bind := fun _ _ => rfl)
  (bind_assoc := by
    intro β γ ε x f g
    funext v
    show VisM.andThen (VisM.andThen x f) g v = VisM.andThen x (fun b => VisM.andThen (f b) g) v
    unfold VisM.andThen
    rcases x v with ⟨o | o, v'⟩ <;> rfl)

theorem Does.mapM {β γ : Type} {I : Option Bool → Vis α → Prop} {f : β → VisM α γ} {g : β → γ} {k : Option Bool} : ∀ {l : List β} {v : Vis α}, I k v →
    (∀ b ∈ l, ∀ v, I k v → Does I (f b) v k fun c _ => c = g b) → Does I (l.mapM f) v k fun c _ => c = l.map g
  | [], v, h, _ => by
    rw [List.mapM_nil]
    exact Does.pure h rfl
  | b :: l, v, h, hf => by
    rw [List.mapM_cons]
    refine Does.bind (hf b (by simp) v h) ?_
    rintro c v1 h1 - rfl
    refine Does.bind (Does.mapM h1 fun b' hb' => hf b' (by simp [hb'])) ?_
    rintro cs v2 h2 - rfl
    exact Does.pure h2 rfl

section
variable {sizes : List Nat} {n1 n2 : List α} {t : List DateTime} {labels suffixes : List String} {fuel : Nat}
local notation "J" => Inv ms r sizes fuel n1 n2 own harm t labels suffixes
local notation "Rdy" => VisReady ms r sizes n1 n2 own harm t labels suffixes

/-- All calls but the density plots succeed. -/
theorem exec_does (hr : Rdy) (hdraw : DrawOk draw) (hfuel : FuelOk ms n1 n2 own harm t fuel) {k : Option Bool} {v : Vis α} (h : J k v) {c : VisCall} (hc : ∀ q, c ≠ .density q) :
    Does J (c.exec draw fuel) v (k <|> c.asks) fun _ _ => True := by
  have hn : ∀ k : Option Bool, (k <|> none) = k := orElse_none
  have out : ∀ {β : Type} {x : VisM α β} {k' : Option Bool} {Q : β → Vis α → Prop} (_ : Does J x v k' Q) (f : β → VisOut α),
      Does J (x >>= fun b => Pure.pure (f b)) v k' fun _ _ => True := fun h f => Does.bind h fun _ _ h1 _ _ => Does.pure h1 trivial
  cases c with
  | full q => exact out (getFull_does hr h q) _
  | samples q => exact out (getSamples_does hr hdraw h q) _
  | monthly q => exact out (getMonthly_does hr hfuel h q) _
  | times => simp only [VisCall.asks, hn]; exact out (getTimes_does hr.h_time h) _
  | timesSamples => simp only [VisCall.asks, hn]; exact out (getTimesSamples_does hr hdraw h) _
  | positions => simp only [VisCall.asks, hn]; exact out (getPositions_does hr hdraw h) _
  | total => simp only [VisCall.asks, hn]; exact out (getTotal_does h) _
  | muTotal => simp only [VisCall.asks, hn]; exact out (getMuTotal_does hr h) _
  | labels => simp only [VisCall.asks, hn]; exact out (getLabels_does hr h) _
  | suffixes => simp only [VisCall.asks, hn]; exact out (getSuffixes_does hr h) _
  | scatter q => exact out (scatter_does hr hdraw h q) _
  | scatterMonthly q => exact out (scatterMonthly_does hr hfuel h q) _
  | scatterNominal => exact out (scatterPair_does hr hdraw h .L1_nom .L2_nom (by cases k <;> rfl)) VisOut.pairs
  | scatterHarmonised => exact out (scatterPair_does hr hdraw h .L1_harm .L2_harm (by cases k <;> rfl)) _
  | density q => exact absurd rfl (hc q)

theorem runCalls_does (hr : Rdy) (hdraw : DrawOk draw) (hfuel : FuelOk ms n1 n2 own harm t fuel) : ∀ {calls : List VisCall} {k : Option Bool} {v : Vis α}, J k v →
    (∀ c ∈ calls, ∀ q, c ≠ .density q) → Does J (runCalls draw fuel calls) v (k <|> calls.findSome? VisCall.asks) fun _ _ => True
  | [], k, v, h, _ => by
    simp only [List.findSome?_nil, orElse_none]
    exact Does.pure h trivial
  | c :: calls, k, v, h, hc => by
    refine Does.bind (exec_does hr hdraw hfuel h (hc c (by simp))) ?_
    rintro - v1 h1 - -
    have := runCalls_does hr hdraw hfuel h1 (calls := calls) fun c' hc' => hc c' (by simp [hc'])
    rw [List.findSome?_cons]
    cases k with
    | some b => exact this
    | none =>
      cases hca : c.asks with
      | none => rw [hca] at this; exact this
      | some b => rw [hca] at this; exact this

theorem overCovariates_does (hr : Rdy) {sqrt : α → α} {k : Option Bool} {v : Vis α} (h : J k v) {q : Quantity} {out : List (Drawn α)}
    (hk : k ≠ none)
    (hx : binnedX sqrt ms.mu given labels suffixes (residualTitle q).1 (residualTitle q).2 (shownBy n1 n2 own harm ms.mu.ks k q) none = .ok out) :
    Does J (plotOverCovariates sqrt given q none) v k fun b _ => b = out := by
  have hkq : (k <|> q.asks) = k := by
    cases k with
    | none => exact absurd rfl hk
    | some b => rfl
  unfold plotOverCovariates
  refine Does.bind (k1 := k) (by have := getFull_does hr h q; rw [hkq] at this; exact this) ?_
  rintro y v1 h1 - rfl
  refine Does.bind (getLabels_does hr h1) ?_
  rintro l v2 h2 - ⟨rfl, -⟩
  refine Does.bind (getSuffixes_does hr h2) ?_
  rintro s v3 h3 - rfl
  refine Does.bind (theMatchUp_does h3 _) ?_
  rintro m v4 h4 - ⟨rfl, rfl⟩
  exact Does.lift hx h4 rfl

theorem overAdditional_does (hr : Rdy) {sqrt : α → α} {isNan : α → Bool} {k : Option Bool} {v : Vis α} (h : J k v) {q : Quantity} {names : List String} {x : String → List α}
    {out : String → List (Drawn α)} (hk : k ≠ none) (hnames : ms.mu.idx.additional_values_name = some names) (hget : ∀ n ∈ names, ms.mu.getAdditionalData n none = .ok (x n))
    (hx : ∀ n ∈ names, binnedAdditional sqrt ms.mu.idx labels suffixes n n (residualTitle q).1 (residualTitle q).2 (shownBy n1 n2 own harm ms.mu.ks k q)
      ((x n).map fun v => if isNan v then none else some v) none = .ok (out n)) :
    Does J (plotOverAdditional sqrt isNan q none) v k fun b _ => b = names.map out := by
  have hkq : (k <|> q.asks) = k := by
    cases k with
    | none => exact absurd rfl hk
    | some b => rfl
  unfold plotOverAdditional
  refine Does.bind (theMatchUp_does h _) ?_
  rintro m v1 h1 - ⟨rfl, rfl⟩
  rw [hnames]
  refine Does.mapM h1 ?_
  intro n hn v h
  refine Does.bind (k1 := k) (by have := getFull_does hr h q; rw [hkq] at this; exact this) ?_
  rintro y v1 h1 - rfl
  refine Does.bind (Does.lift (Q := fun b _ => b = x n) (hget n hn) h1 rfl) ?_
  rintro xn v2 h2 - rfl
  refine Does.bind (getLabels_does hr h2) ?_
  rintro l v3 h3 - ⟨rfl, -⟩
  refine Does.bind (getSuffixes_does hr h3) ?_
  rintro s v4 h4 - rfl
  exact Does.lift (hx n hn) h4 rfl

end

theorem run_asks : plottingRunCalls.findSome? VisCall.asks = some false := by decide

theorem run_density : ∀ c ∈ plottingRunCalls, ∀ q, c ≠ .density q := by
  intro c hc q
  simp only [plottingRunCalls, List.mem_cons, List.not_mem_nil, or_false] at hc
  rcases hc with rfl | rfl | rfl | rfl | rfl | rfl | rfl | rfl | rfl | rfl <;> exact fun h => by cases h

theorem over_length (hp : PlotFiles env ds sd mu ms) (hown : AllMeasurands sd mu ds own) (hharm : AllMeasurands (harmonisedData r sd) mu ds harm) (q : Quantity) :
    (q.over env ds own).length = (ds.map (·.M)).sum := by
  have := shown_length (hp.ready hown hharm).1 none q
  rwa [shown_own hp hown hharm (.inl (by simp))] at this

/-- **C81, the plotting tool.** When every covariate and every additional variable varies within every series and no first sensor has more covariates than all second sensors,
`HarmonisationPlottingOp.run` ends with all plots of the two residuals over the covariates and over the additional variables. The residuals "of the harmonised measurands" in them are those
of the match-up's own parameters (see C79). -/
theorem C81_run (sqrt : α → α) (hp : PlotFiles env ds sd mu ms) (hown : AllMeasurands sd mu ds own) (hharm : AllMeasurands (harmonisedData r sd) mu ds harm) (hdraw : DrawOk draw)
    (ht : MostCovariates ds top) (h2 : ∃ d ∈ ds, d.s2.m = top) (hr : PlotRanges ds top lo hi Lo Hi) (hn : PlotNames given ds top xn xl)
    (hv : ∀ (i : Nat) (d : Dataset α), ds[i]? = some d → ∀ c < d.s2.m, lo i c < hi i c) {names : List String} (hnames : ms.mu.idx.additional_values_name = some names)
    {isNan : α → Bool} {alo ahi : String → Nat → α} {aLo aHi : String → α} (hx : ∀ n ∈ names, VariableRanges ds isNan (nominalOf env n ds) (alo n) (ahi n) (aLo n) (aHi n)) :
    ∃ N, ∀ fuel, N ≤ fuel → (plottingRun sqrt given isNan draw fuel (newVis (some ms) (some r))).1 = .ok (
      plotsOverCovariates sqrt ds top xn xl "Harmonised K Residual" "k_res_harmonised" (Quantity.kres_harm_harm.over env ds own) lo hi Lo Hi (allNumbers ds) ++
      plotsOverCovariates sqrt ds top xn xl "K Residual = K - (Nominal - Harmonised)" "k_res_nom_harm" (Quantity.kres_nom_harm.over env ds own) lo hi Lo Hi (allNumbers ds) ++
      names.flatMap (fun n => plotsOverVariable sqrt ds n "Harmonised K Residual" "k_res_harmonised" (Quantity.kres_harm_harm.over env ds own) (nominalOf env n ds) (alo n) (ahi n) (aLo n) (aHi n)) ++
      names.flatMap fun n => plotsOverVariable sqrt ds n "K Residual = K - (Nominal - Harmonised)" "k_res_nom_harm" (Quantity.kres_nom_harm.over env ds own) (nominalOf env n ds) (alo n) (ahi n)
        (aLo n) (aHi n)) := by
  obtain ⟨N, hN⟩ := fuel_files hp hown hharm
  refine ⟨N, fun fuel hf => ?_⟩
  have hrd := (hp.ready hown hharm).1
  have hlen := over_length hp hown hharm
  have hc : ∀ q title fname, binnedX sqrt ms.mu given (pairLabels " - " ds) (pairLabels "_" ds) title fname
      (shownBy (nominalOf env "nominal_measurand1" ds) (nominalOf env "nominal_measurand2" ds) own harm ms.mu.ks (some false) q) none =
        .ok (plotsOverCovariates sqrt ds top xn xl title fname (q.over env ds own) lo hi Lo Hi (allNumbers ds)) := by
    intro q title fname
    rw [shown_own hp hown hharm (.inl (by simp))]
    exact C81_covariates_partial sqrt hp ht h2 hr hn hv title fname (hlen q)
  have ha : ∀ q title fname, ∀ n ∈ names, binnedAdditional sqrt ms.mu.idx (pairLabels " - " ds) (pairLabels "_" ds) n n title fname
      (shownBy (nominalOf env "nominal_measurand1" ds) (nominalOf env "nominal_measurand2" ds) own harm ms.mu.ks (some false) q)
      ((nominalOf env n ds).map fun v => if isNan v then none else some v) none =
        .ok (plotsOverVariable sqrt ds n title fname (q.over env ds own) (nominalOf env n ds) (alo n) (ahi n) (aLo n) (aHi n)) := by
    intro q title fname n hn'
    rw [shown_own hp hown hharm (.inl (by simp))]
    exact C81_additional_partial sqrt hp ht (hx n hn') title fname (hlen q)
  have hget : ∀ n ∈ names, ms.mu.getAdditionalData n none = .ok (nominalOf env n ds) := by
    intro n hn'
    obtain ⟨e, he, hms⟩ := setSensorData_inv hp.p_set
    rw [hms] at hnames ⊢
    exact (C07_values env hp.p_enum ds mu hp.p_open hp.p_shaped names hnames n hn').1
  have hall : Does (Inv ms r (ds.map (·.M)) fuel (nominalOf env "nominal_measurand1" ds) (nominalOf env "nominal_measurand2" ds) own harm (timesOf env ds) (pairLabels " - " ds) (pairLabels "_" ds))
      (plottingRun sqrt given isNan draw fuel) (newVis (some ms) (some r)) (some false) fun b _ => b =
        plotsOverCovariates sqrt ds top xn xl "Harmonised K Residual" "k_res_harmonised" (Quantity.kres_harm_harm.over env ds own) lo hi Lo Hi (allNumbers ds) ++
        plotsOverCovariates sqrt ds top xn xl "K Residual = K - (Nominal - Harmonised)" "k_res_nom_harm" (Quantity.kres_nom_harm.over env ds own) lo hi Lo Hi (allNumbers ds) ++
        names.flatMap (fun n => plotsOverVariable sqrt ds n "Harmonised K Residual" "k_res_harmonised" (Quantity.kres_harm_harm.over env ds own) (nominalOf env n ds) (alo n) (ahi n) (aLo n) (aHi n)) ++
        names.flatMap fun n => plotsOverVariable sqrt ds n "K Residual = K - (Nominal - Harmonised)" "k_res_nom_harm" (Quantity.kres_nom_harm.over env ds own) (nominalOf env n ds) (alo n) (ahi n)
          (aLo n) (aHi n) := by
    unfold plottingRun
    refine Does.bind (k1 := some false) (by have := runCalls_does hrd hdraw (hN fuel hf) newVis_inv run_density; rw [run_asks] at this; exact this) ?_
    rintro - v1 h1 - -
    refine Does.bind (overCovariates_does hrd h1 (by simp) (hc .kres_harm_harm _ _)) ?_
    rintro b1 v2 h2 - rfl
    refine Does.bind (overCovariates_does hrd h2 (by simp) (hc .kres_nom_harm _ _)) ?_
    rintro b2 v3 h3 - rfl
    refine Does.bind (overAdditional_does hrd h3 (by simp) hnames hget (ha .kres_harm_harm _ _)) ?_
    rintro b3 v4 h4 - rfl
    refine Does.bind (overAdditional_does hrd h4 (by simp) hnames hget (ha .kres_nom_harm _ _)) ?_
    rintro b4 v5 h5 - rfl
    refine Does.pure h5 ?_
    simp only [List.flatMap_def]
    rfl
  obtain ⟨b, v', e1, -, -, rfl⟩ := hall
  rw [e1]

/-- When a computation of a loop never succeeds, neither does the loop. -/
theorem never_mapM {β γ : Type} {f : β → VisM α γ} {b : β} (hb : ∀ v, ∃ e, (f b v).1 = .error e) : ∀ {l : List β} {v : Vis α}, b ∈ l → ∃ e, (l.mapM f v).1 = .error e
  | [], _, h => by cases h
  | a :: l, v, h => by
    rw [List.mapM_cons]
    rcases List.mem_cons.1 h with rfl | h
    · exact never_bind fun c v' hc => by
        obtain ⟨e, he⟩ := hb v
        rw [hc] at he
        cases he
    · exact never_bind fun c v' _ => never_bind fun cs v'' hcs => by
        obtain ⟨e, he⟩ := never_mapM hb (v := v') h
        rw [hcs] at he
        cases he

/-- **C81 is false of missing or constant variables:** when a variable of one file is missing from another (or has one value throughout it), `HarmonisationPlottingOp.run` fails, whatever
else is plotted. -/
theorem C81_missing_variable (sqrt : α → α) (hp : PlotFiles env ds sd mu ms) (hown : AllMeasurands sd mu ds own) (hharm : AllMeasurands (harmonisedData r sd) mu ds harm) (hdraw : DrawOk draw)
    (ht : MostCovariates ds top) {n : String} (hn : n ∉ standardVariableNames) (hvar : ∃ d ∈ ds, ∃ v, (n, v) ∈ d.vars ∧ v.dims = ["M"]) {d : Dataset α} (hd : d ∈ ds)
    (hc : d.var? n = none ∨ ∃ a, ∀ v ∈ additionalData env n d, v = a) (given : VariableNames) (isNan : α → Bool) :
    ∃ N, ∀ fuel, N ≤ fuel → ∃ e, (plottingRun sqrt given isNan draw fuel (newVis (some ms) (some r))).1 = .error e := by
  obtain ⟨N, hN⟩ := fuel_files hp hown hharm
  refine ⟨N, fun fuel hf => ?_⟩
  have hrd := (hp.ready hown hharm).1
  obtain ⟨a, ha⟩ : ∃ a, ∀ v ∈ additionalData env n d, v = a := by
    rcases hc with hc | hc
    · refine ⟨env.nan, ?_⟩
      unfold additionalData
      rw [hc]
      exact fun v hv => List.eq_of_mem_replicate hv
    · exact hc
  obtain ⟨i, hi⟩ := List.getElem?_of_mem hd
  obtain ⟨names, m1, -, m3⟩ := C07_names env hp.p_enum ds mu hp.p_open
  have hnm : n ∈ names := (m3 n).2 ⟨hn, hvar⟩
  have hget : ms.mu.getAdditionalData n none = .ok (nominalOf env n ds) ∧ ms.mu.idx.additional_values_name = some names := by
    obtain ⟨e, he, hms⟩ := setSensorData_inv hp.p_set
    rw [hms]
    exact ⟨(C07_values env hp.p_enum ds mu hp.p_open hp.p_shaped names m1 n hnm).1, m1⟩
  have hadd : ∀ (q : Quantity) (v : Vis α), v.ms = some ms → ∃ e, (plotOverAdditional sqrt isNan q none v).1 = .error e := by
    intro q v hv
    unfold plotOverAdditional
    refine never_bind fun m v1 h1 => ?_
    have : m = ms := by
      unfold theMatchUp at h1
      rw [hv] at h1
      cases h1
      rfl
    subst this
    rw [hget.2]
    refine never_mapM (b := n) ?_ hnm
    intro v2
    refine never_bind fun y v3 _ => never_bind fun x v4 hx => never_bind fun l v5 _ => never_bind fun s v6 _ => ?_
    rw [hget.1] at hx
    cases hx
    cases y with
    | none => exact ⟨_, rfl⟩
    | some Y => exact binnedAdditional_constant sqrt (hp.binReady ht) hi (series_constant hp hi ha _)
  have hcov : ∀ (q : Quantity) (k : Option Bool) (v : Vis α),
      Inv ms r (ds.map (·.M)) fuel (nominalOf env "nominal_measurand1" ds) (nominalOf env "nominal_measurand2" ds) own harm (timesOf env ds) (pairLabels " - " ds) (pairLabels "_" ds) k v →
      Inv ms r (ds.map (·.M)) fuel (nominalOf env "nominal_measurand1" ds) (nominalOf env "nominal_measurand2" ds) own harm (timesOf env ds) (pairLabels " - " ds) (pairLabels "_" ds) (k <|> q.asks)
        (plotOverCovariates sqrt given q none v).2 := by
    intro q k v h
    unfold plotOverCovariates
    refine (Keeps.bind (getFull_does hrd h q) ?_).1
    rintro y v1 h1 rfl
    refine Keeps.bind (getLabels_does hrd h1) ?_
    rintro l v2 h2 ⟨rfl, -⟩
    refine Keeps.bind (getSuffixes_does hrd h2) ?_
    rintro s v3 h3 rfl
    refine Keeps.bind (theMatchUp_does h3 _) ?_
    rintro m v4 h4 ⟨rfl, rfl⟩
    exact ⟨h4, fun _ h => h⟩
  obtain ⟨u0, v1, e1, h1, -, -⟩ := runCalls_does hrd hdraw (hN fuel hf) (newVis_inv (r := r)) run_density
  unfold plottingRun
  refine never_bind fun u v2 g1 => ?_
  rw [e1] at g1
  cases g1
  refine never_bind fun a v2 g2 => never_bind fun b v3 g3 => never_bind fun c v4 g4 => ?_
  have i2 := hcov .kres_harm_harm _ _ h1
  rw [g2] at i2
  have i3 := hcov .kres_nom_harm _ _ i2
  rw [g3] at i3
  obtain ⟨e, he⟩ := hadd .kres_harm_harm v3 i3.i_ms
  rw [g4] at he
  cases he

/-- **C81, overwriting:** two files of the same two sensors (whose covariate has one name) give plots of the same name: the plot of the later file replaces that of the earlier. -/
theorem C81_overwritten (sqrt : α → α) {i j c : Nat} {d e : Dataset α} (hd : ds[i]? = some d) (he : ds[j]? = some e) (h1 : d.s1.name = e.s1.name) (h2 : d.s2.name = e.s2.name)
    (hc : c < d.s2.m) (hc' : c < e.s2.m) (hn : PlotNames given ds top xn xl) (ht : c < top) (title fname : String) (Y : List α) :
    ∃ p q, seriesPlot sqrt ds xn xl title fname Y lo hi c (i + 1, i) = some p ∧ seriesPlot sqrt ds xn xl title fname Y lo hi c (j + 1, j) = some q ∧ p.file = q.file := by
  have hx : xn i c = xn j c := by
    have a1 := (hn.n_names i d hd c ht).eq
    have a2 := (hn.n_names j e he c ht).eq
    rw [h2, a2] at a1
    exact (Except.ok.inj a1).symm
  unfold seriesPlot
  simp only [Nat.add_sub_cancel, hd, he, Option.bind_some, hc, hc', if_true]
  exact ⟨_, _, rfl, rfl, by simp only [hx, h1, h2]⟩

/-- **C81, error bars:** in the plot of one series every error bar is that of the first bin. -/
theorem C81_error_bars (pts : List (α × α × Option α)) : ∀ p ∈ withFirstError pts, ∀ q, pts.head? = some q → p.2.2 = q.2.2 := by
  intro p hp q hq
  unfold withFirstError at hp
  obtain ⟨a, -, rfl⟩ := List.mem_map.1 hp
  rw [hq]
  rfl

/-- **C81, the greatest value:** match-ups with the greatest value of the variable are in no bin, so that they are not in the plot over this range. -/
theorem C81_greatest_lost (M : Nat) {x : Nat → α} {a b : α} (hab : a ≤ b) {s : Nat} (hs : x s = b) : ∀ i < 50, s ∉ binRows M x a b 50 i := by
  intro i hi hmem
  unfold binRows at hmem
  have hin := of_decide_eq_true (List.mem_filter.1 hmem).2
  unfold InBin at hin
  rw [hs] at hin
  have h1 : ((i : α) + 1) ≤ 50 := by exact_mod_cast hi
  have h2 : ((i : α) + 1) * ((b - a) / ((50 : Nat) : α)) ≤ b - a := by
    have h3 : (0 : α) ≤ (b - a) / ((50 : Nat) : α) := div_nonneg (by linarith) (by positivity)
    calc ((i : α) + 1) * ((b - a) / ((50 : Nat) : α)) ≤ 50 * ((b - a) / ((50 : Nat) : α)) := mul_le_mul_of_nonneg_right h1 h3
      _ = b - a := by push_cast; field_simp
  linarith [hin.2]

end

/-- **C81 is false of the error bars:** over `0, 0, 1, 1, 2`, the values `1, 3` of the first bin have the standard deviation `1` and the values `5, 5` of the other `0`; both points are drawn with
the error bar `1`. -/
theorem C81_error_bars_wrong (sqrt : ℚ → ℚ) : (binSeries sqrt [1, 3, 5, 5, 7] [some 0, some 0, some 1, some 1, some 2] (some 0) (some 2)).map (fun r => r.1) =
    .ok [(1 / 50, 2, some (sqrt 1)), (51 / 50, 5, some (sqrt 1))] := by
  kernel_rfl

/-! ### A concrete case -/
namespace Fixture

theorem mem_two {P : ℚ → Prop} {a b c : ℚ} (h : P a ∧ P b ∧ P c) : ∀ v ∈ [a, b, c], P v := by
  intro v hv
  simp only [List.mem_cons, List.not_mem_nil, or_false] at hv
  rcases hv with rfl | rfl | rfl
  · exact h.1
  · exact h.2.1
  · exact h.2.2

theorem three {P : Nat → Prop} (h : P 0 ∧ P 1 ∧ P 2) : ∀ r < 3, P r := by
  intro r hr
  rcases r with _ | _ | _ | r
  · exact h.1
  · exact h.2.1
  · exact h.2.2
  · omega

/-- The hypotheses of the theorems above hold for a file with two covariates and two additional variables, without names in the sensor data. -/
theorem binned_case : ∃ mu ms own harm names, PlotFiles visEnv [visFile] visModels mu ms ∧ AllMeasurands visModels mu [visFile] own ∧
    AllMeasurands (harmonisedData visResult visModels) mu [visFile] harm ∧ MostCovariates [visFile] 2 ∧ (∃ d ∈ [visFile], d.s2.m = 2) ∧
    PlotRanges [visFile] 2 (fun _ c => visFile.s2.X 0 c) (fun _ c => visFile.s2.X 2 c) (fun c => visFile.s2.X 0 c) (fun c => visFile.s2.X 2 c) ∧
    PlotNames ⟨fun _ => none, fun _ => none⟩ [visFile] 2 (fun _ c => "X" ++ toString (c + 1)) (fun _ c => "X" ++ toString (c + 1)) ∧
    (∀ (i : Nat) (d : Dataset ℚ), [visFile][i]? = some d → ∀ c < d.s2.m, visFile.s2.X 0 c < visFile.s2.X 2 c) ∧
    ms.mu.idx.additional_values_name = some names ∧ names ≠ [] ∧
    ∀ n ∈ names, VariableRanges [visFile] (fun v => decide (v = -99)) (nominalOf visEnv n [visFile]) (fun _ => if n = "nominal_measurand1" then 1 else 4)
      (fun _ => if n = "nominal_measurand1" then 3 else 9) (if n = "nominal_measurand1" then 1 else 4) (if n = "nominal_measurand1" then 3 else 9) := by
  obtain ⟨mu, ms, own, harm, h1, h2, h3, -⟩ := vis_case
  have hone : ∀ {P : Nat → Dataset ℚ → Prop}, P 0 visFile → ∀ (i : Nat) (d : Dataset ℚ), [visFile][i]? = some d → P i d := by
    intro P hP i d hd
    cases i with
    | zero => cases hd; exact hP
    | succ i => cases hd
  have hmono : ∀ c < 2, RangeOf 3 (fun r => visFile.s2.X r c) (visFile.s2.X 0 c) (visFile.s2.X 2 c) ∧ visFile.s2.X 0 c < visFile.s2.X 2 c := by
    intro c hc
    have h : visFile.s2.X 0 c ≤ visFile.s2.X 1 c ∧ visFile.s2.X 1 c ≤ visFile.s2.X 2 c ∧ visFile.s2.X 0 c < visFile.s2.X 2 c := by
      rcases c with _ | _ | c
      · decide +kernel
      · decide +kernel
      · omega
    obtain ⟨a1, a2, a3⟩ := h
    exact ⟨⟨three ⟨⟨le_rfl, le_of_lt a3⟩, ⟨a1, a2⟩, ⟨le_of_lt a3, le_rfl⟩⟩, ⟨0, by omega, rfl⟩, ⟨2, by omega, rfl⟩⟩, a3⟩
  obtain ⟨names, m1, -, m3⟩ := C07_names visEnv h1.p_enum [visFile] mu h1.p_open
  obtain ⟨e, he, hms⟩ := setSensorData_inv h1.p_set
  refine ⟨mu, ms, own, harm, names, h1, h2, h3, ?_, ⟨visFile, by simp, rfl⟩, ?_, ?_, ?_, by rw [hms]; exact m1, ?_, ?_⟩
  · refine ⟨?_, visFile, by simp, .inr rfl⟩
    intro d hd
    simp only [List.mem_cons, List.not_mem_nil, or_false] at hd
    subst hd
    exact ⟨le_refl 2, le_refl 2⟩
  · constructor
    · exact hone fun c hc => (hmono c hc).1
    · intro c hc
      obtain ⟨⟨b1, b2, b3⟩, -⟩ := hmono c hc
      refine ⟨?_, ⟨visFile, by simp, hc, b2⟩, ⟨visFile, by simp, hc, b3⟩⟩
      intro d hd _
      simp only [List.mem_cons, List.not_mem_nil, or_false] at hd
      subst hd
      exact b1
  · exact ⟨fun _ _ _ _ _ => .inr ⟨rfl, rfl⟩, fun _ _ _ _ _ => .inr ⟨rfl, rfl⟩⟩
  · exact hone fun c hc => (hmono c hc).2
  · rintro rfl
    have := (m3 "nominal_measurand1").2 ⟨by decide +kernel, visFile, by simp, _, .head _, rfl⟩
    cases this
  · intro n hn
    obtain ⟨-, d, hd, v, hv, -⟩ := (m3 n).1 hn
    simp only [List.mem_cons, List.not_mem_nil, or_false] at hd
    subst hd
    have key : ∀ a b c : ℚ, a < b → b < c → nominalOf visEnv n [visFile] = [a, b, c] → a ≠ -99 → b ≠ -99 → c ≠ -99 →
        VariableRanges [visFile] (fun v => decide (v = -99)) (nominalOf visEnv n [visFile]) (fun _ => a) (fun _ => c) a c := by
      intro a b c hab hbc hl q1 q2 q3
      rw [hl]
      refine ⟨mem_two ⟨by simpa using q1, by simpa using q2, by simpa using q3⟩, ?_, mem_two ⟨⟨le_rfl, by linarith⟩, ⟨by linarith, by linarith⟩, ⟨by linarith, le_rfl⟩⟩, by simp, by simp⟩
      refine hone ⟨⟨three ⟨⟨le_rfl, ?_⟩, ⟨?_, ?_⟩, ⟨?_, le_rfl⟩⟩, ⟨0, show 0 < 3 by omega, rfl⟩, ⟨2, show 2 < 3 by omega, rfl⟩⟩, by linarith⟩
      · show a ≤ c; linarith
      · show a ≤ b; linarith
      · show b ≤ c; linarith
      · show a ≤ c; linarith
    simp only [visFile, List.mem_cons, Prod.mk.injEq, List.not_mem_nil, or_false] at hv
    rcases hv with ⟨rfl, -⟩ | ⟨rfl, -⟩
    · exact key 1 2 3 (by norm_num) (by norm_num) (by decide +kernel) (by norm_num) (by norm_num) (by norm_num)
    · exact key 4 6 9 (by norm_num) (by norm_num) (by decide +kernel) (by norm_num) (by norm_num) (by norm_num)

/-- So the plotting tool ends with plots. -/
example {draw : Nat → Nat → Nat → List Nat} (hdraw : DrawOk draw) : ∃ ms : Evaluable ℚ DateTime, ∃ N, ∀ fuel, N ≤ fuel → ∃ plots,
    (plottingRun (fun v => v) ⟨fun _ => none, fun _ => none⟩ (fun v => decide (v = -99)) draw fuel (newVis (some ms) (some visResult))).1 = .ok plots := by
  obtain ⟨mu, ms, own, harm, names, h1, h2, h3, h4, h5, h6, h7, h8, h9, -, h10⟩ := binned_case
  obtain ⟨N, hN⟩ := C81_run (fun v => v) h1 h2 h3 hdraw h4 h5 h6 h7 h8 h9 h10
  exact ⟨ms, N, fun fuel hf => ⟨_, hN fuel hf⟩⟩

end Fixture
end Verif
