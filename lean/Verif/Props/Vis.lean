import Verif.Lemmas.VisFiles
import Verif.Lemmas.KernelRfl
/-
C79 (what a `HarmonisationVis` object gives and plots as harmonised values) and C80 (which match-ups are plotted).
-/
set_option autoImplicit false
set_option linter.unusedSectionVars false
namespace Verif
variable {α : Type} [Field α] [DecidableEq α]

/-- The value of a quantity for all match-ups of the files, when the measurands are `L` (of the first sensors, of the second sensors). -/
def Quantity.over (env : ReadEnv α DateTime) (ds : List (Dataset α)) (L : List α × List α) (q : Quantity) : List α :=
  q.spec (nominalOf env "nominal_measurand1" ds) (nominalOf env "nominal_measurand2" ds) L.1 L.2 (valuesK ds)

theorem slice_len {β : Type} (l : List β) {a n : Nat} (h : a + n ≤ l.length) : (slice l a (a + n)).length = n := by
  unfold slice
  simp
  omega

/-- Monthly means of every series can be computed, and are right. -/
theorem monthlyOf_ok {x : Idx} {sizes : List Nat} (hc : x.cNm = prefixSums sizes) (hpos : ∀ M ∈ sizes, 1 ≤ M) {t : List DateTime} (hv : ∀ y ∈ t, y.Valid) (ht : t.length = sizes.sum)
    {vals : List α} (hl : vals.length = sizes.sum) : ∃ N, ∀ fuel, N ≤ fuel → ∃ l, monthlyOf x fuel t vals = .ok l ∧ l.length = sizes.length ∧
      ∀ (i M : Nat), sizes[i]? = some M → ∃ s, l[i]? = some s ∧
        MonthlyMeans (slice vals (sizes.take i).sum ((sizes.take i).sum + M)) (slice t (sizes.take i).sum ((sizes.take i).sum + M)) s := by
  have hser : ∀ i ∈ List.range sizes.length, ∃ N, ∀ fuel, N ≤ fuel → ∃ out,
      MonthlyMeans (slice vals (sizes.take i).sum (sizes.take (i + 1)).sum) (slice t (sizes.take i).sum (sizes.take (i + 1)).sum) out ∧
      monthlyMeans fuel (slice vals (sizes.take i).sum (sizes.take (i + 1)).sum) (slice t (sizes.take i).sum (sizes.take (i + 1)).sum) = .ok out := by
    intro i hi
    have hi := List.mem_range.1 hi
    have hM : sizes[i]? = some sizes[i] := List.getElem?_eq_getElem hi
    rw [take_sum_next hM]
    have hle := take_sum_le hM
    have h1 : (slice t (sizes.take i).sum ((sizes.take i).sum + sizes[i])).length = sizes[i] := slice_len _ (by omega)
    obtain ⟨out, ho, N, hN⟩ := monthlyMeans_ok (vals := slice vals (sizes.take i).sum ((sizes.take i).sum + sizes[i])) (times := slice t (sizes.take i).sum ((sizes.take i).sum + sizes[i]))
      (by
        have := hpos _ (List.getElem_mem hi)
        intro h; rw [h] at h1; simp only [List.length_nil] at h1; omega)
      (fun y hy => hv y (by unfold slice at hy; exact List.mem_of_mem_drop (List.mem_of_mem_take hy)))
      (by rw [h1, slice_len _ (by omega)])
    exact ⟨N, fun fuel hf => ⟨out, ho, hN fuel hf⟩⟩
  obtain ⟨N, hN⟩ := eventually_all hser
  refine ⟨N, fun fuel hf => ?_⟩
  have hall := hN fuel hf
  unfold monthlyOf
  rw [seriesBounds_eq hc]
  obtain ⟨l, hl'⟩ := mapM_all_ok (f := fun b : Nat × Nat => monthlyMeans fuel (slice vals b.1 b.2) (slice t b.1 b.2))
    (l := (List.range sizes.length).map fun i => ((sizes.take i).sum, (sizes.take (i + 1)).sum)) (by
      intro b hb
      obtain ⟨i, hi, rfl⟩ := List.mem_map.1 hb
      obtain ⟨out, _, ho⟩ := hall i hi
      exact ⟨out, ho⟩)
  refine ⟨l, hl', ?_, ?_⟩
  · rw [(mapM_ok_get hl').1]; simp
  · intro i M hM
    have hi := (List.getElem?_eq_some_iff.1 hM).1
    obtain ⟨s, hs, hs'⟩ := (mapM_ok_get hl').2 i ((sizes.take i).sum, (sizes.take (i + 1)).sum) (by rw [List.getElem?_map, List.getElem?_range hi]; rfl)
    obtain ⟨out, ho, ho'⟩ := hall i (List.mem_range.2 hi)
    refine ⟨s, hs', ?_⟩
    simp only [ho'] at hs
    cases hs
    rw [take_sum_next hM] at ho
    exact ho

section
variable {env : ReadEnv α DateTime} {ds : List (Dataset α)} {sd : SensorData α (SensorModel α DateTime) (AdjModel α)} {mu : MatchUp α DateTime} {ms : Evaluable α DateTime}
  {r : List α × List String} {own harm : List α × List α} {draw : Nat → Nat → Nat → List Nat}

theorem times_valid (hp : PlotFiles env ds sd mu ms) : ∀ y ∈ timesOf env ds, y.Valid := by
  intro y hy
  unfold timesOf at hy
  obtain ⟨l, hl, hy⟩ := List.mem_flatten.1 hy
  obtain ⟨d, hd, rfl⟩ := List.mem_map.1 hl
  obtain ⟨i, hi, rfl⟩ := List.mem_map.1 hy
  exact hp.p_dates d hd i (List.mem_range.1 hi)

theorem monthly_files (hp : PlotFiles env ds sd mu ms) (hown : AllMeasurands sd mu ds own) (hharm : AllMeasurands (harmonisedData r sd) mu ds harm) :
    ∃ N, ∀ fuel, N ≤ fuel → ∀ k q, ∃ l,
      monthlyOf ms.mu.idx fuel (timesOf env ds) (shownBy (nominalOf env "nominal_measurand1" ds) (nominalOf env "nominal_measurand2" ds) own harm ms.mu.ks k q) = .ok l ∧
      l.length = (ds.map (·.M)).length ∧ ∀ (i M : Nat), (ds.map (·.M))[i]? = some M → ∃ s, l[i]? = some s ∧
        MonthlyMeans (slice (shownBy (nominalOf env "nominal_measurand1" ds) (nominalOf env "nominal_measurand2" ds) own harm ms.mu.ks k q) ((ds.map (·.M)).take i).sum (((ds.map (·.M)).take i).sum + M))
          (slice (timesOf env ds) ((ds.map (·.M)).take i).sum (((ds.map (·.M)).take i).sum + M)) s := by
  obtain ⟨hr, -⟩ := hp.ready hown hharm
  have hpos : ∀ M ∈ ds.map (·.M), 1 ≤ M := by
    intro M hM
    obtain ⟨d, hd, rfl⟩ := List.mem_map.1 hM
    exact hp.p_rows d hd
  have h1 := fun k q => monthlyOf_ok hr.h_cNm hpos (times_valid hp) hr.h_tlen (shown_length hr k q)
  obtain ⟨N, hN⟩ := eventually_all (l := [none, some true, some false]) (P := fun k fuel => ∀ q ∈ [Quantity.L1_nom, .L2_nom, .kres_nom_nom, .L1_harm, .L2_harm, .kres_harm_harm, .kres_nom_harm], _)
    fun k _ => eventually_all fun q _ => h1 k q
  refine ⟨N, fun fuel hf k q => hN fuel hf k ?_ q ?_⟩
  · match k with
    | none => simp
    | some true => simp
    | some false => simp
  · cases q <;> simp

/-- Everything about the object after a history of calls. -/
theorem history_inv (hp : PlotFiles env ds sd mu ms) (hown : AllMeasurands sd mu ds own) (hharm : AllMeasurands (harmonisedData r sd) mu ds harm) (hdraw : DrawOk draw) {fuel : Nat}
    (hfuel : FuelOk ms (nominalOf env "nominal_measurand1" ds) (nominalOf env "nominal_measurand2" ds) own harm (timesOf env ds) fuel) (calls : List VisCall) :
    Inv ms r (ds.map (·.M)) fuel (nominalOf env "nominal_measurand1" ds) (nominalOf env "nominal_measurand2" ds) own harm (timesOf env ds) (pairLabels " - " ds) (pairLabels "_" ds)
      (calls.findSome? VisCall.asks) ((newVis (some ms) (some r)).after draw fuel calls) :=
  (after_inv (hp.ready hown hharm).1 hdraw hfuel calls none _ newVis_inv).1

theorem fuel_files (hp : PlotFiles env ds sd mu ms) (hown : AllMeasurands sd mu ds own) (hharm : AllMeasurands (harmonisedData r sd) mu ds harm) :
    ∃ N, ∀ fuel, N ≤ fuel → FuelOk ms (nominalOf env "nominal_measurand1" ds) (nominalOf env "nominal_measurand2" ds) own harm (timesOf env ds) fuel := by
  obtain ⟨N, hN⟩ := monthly_files hp hown hharm
  exact ⟨N, fun fuel hf k q => by obtain ⟨l, hl, -⟩ := hN fuel hf k q; exact ⟨l, hl⟩⟩

omit [DecidableEq α] in
theorem spec_nominal {n1 n2 k : List α} {L L' : List α × List α} {q : Quantity} (h : q.harmonised = false) : q.spec n1 n2 L.1 L.2 k = q.spec n1 n2 L'.1 L'.2 k := by
  cases q <;> first | rfl | cases h

theorem shown_harm (hp : PlotFiles env ds sd mu ms) (hown : AllMeasurands sd mu ds own) (hharm : AllMeasurands (harmonisedData r sd) mu ds harm) {k : Option Bool} {q : Quantity}
    (h : k = some true ∨ q.harmonised = false) :
    shownBy (nominalOf env "nominal_measurand1" ds) (nominalOf env "nominal_measurand2" ds) own harm ms.mu.ks k q = q.over env ds harm := by
  unfold shownBy Quantity.over
  rw [(hp.ready hown hharm).2]
  split
  · rfl
  · rename_i hk
    exact spec_nominal (h.resolve_left hk)

theorem shown_own (hp : PlotFiles env ds sd mu ms) (hown : AllMeasurands sd mu ds own) (hharm : AllMeasurands (harmonisedData r sd) mu ds harm) {k : Option Bool} {q : Quantity}
    (h : k ≠ some true ∨ q.harmonised = false) :
    shownBy (nominalOf env "nominal_measurand1" ds) (nominalOf env "nominal_measurand2" ds) own harm ms.mu.ks k q = q.over env ds own := by
  unfold shownBy Quantity.over
  rw [(hp.ready hown hharm).2]
  split
  · rename_i hk
    exact spec_nominal (h.resolve_left (fun h => h hk))
  · rfl

/-! ### C79 -/

/-- **C79 (partial).** An object made of opened files with sensor data and of a harmonisation result. After any history of calls the match-up has the parameters it had; nominal quantities
are those of the files; and harmonised quantities are computed with the parameters of the result (each sensor's own model on the file's data with the parameters labelled with the
sensor) if the first call that needed measurands needed those of the first sensor first. Missing: the other histories, for which it is false (`C79_wrong_for_ever`). -/
theorem C79_first_sensor_first_partial (hp : PlotFiles env ds sd mu ms) (hown : AllMeasurands sd mu ds own) (hharm : AllMeasurands (harmonisedData r sd) mu ds harm) (hdraw : DrawOk draw) :
    ∃ N, ∀ fuel, N ≤ fuel → ∀ (calls : List VisCall),
      ((newVis (some ms) (some r)).after draw fuel calls).ms = some ms ∧
      ∀ q : Quantity, ((calls.findSome? VisCall.asks <|> q.asks) = some true ∨ q.harmonised = false) →
        (getFull q ((newVis (some ms) (some r)).after draw fuel calls)).1 = .ok (some (q.over env ds harm)) := by
  obtain ⟨N, hN⟩ := fuel_files hp hown hharm
  refine ⟨N, fun fuel hf calls => ?_⟩
  have hI := history_inv hp hown hharm hdraw (hN fuel hf) calls
  refine ⟨hI.i_ms, fun q hq => ?_⟩
  obtain ⟨b, v', e1, -, -, rfl⟩ := getFull_does (hp.ready hown hharm).1 hI q
  rw [e1, shown_harm hp hown hharm hq]

/-- **C79 is false of the code:** when the first call that needs measurands needs those of the second sensor first - as `get_L2_harm`, `get_kres_harm_harm` and everything built on them do -
the parameters of the result are not used; everything the object ever gives as harmonised is then computed with the match-up's own parameters. -/
theorem C79_wrong_for_ever (hp : PlotFiles env ds sd mu ms) (hown : AllMeasurands sd mu ds own) (hharm : AllMeasurands (harmonisedData r sd) mu ds harm) (hdraw : DrawOk draw) :
    ∃ N, ∀ fuel, N ≤ fuel → ∀ (calls : List VisCall) (q : Quantity), (calls.findSome? VisCall.asks <|> q.asks) = some false →
      (getFull q ((newVis (some ms) (some r)).after draw fuel calls)).1 = .ok (some (q.over env ds own)) := by
  obtain ⟨N, hN⟩ := fuel_files hp hown hharm
  refine ⟨N, fun fuel hf calls q hq => ?_⟩
  have hI := history_inv hp hown hharm hdraw (hN fuel hf) calls
  obtain ⟨b, v', e1, -, -, rfl⟩ := getFull_does (hp.ready hown hharm).1 hI q
  rw [e1, shown_own hp hown hharm (.inl (by rw [hq]; simp))]

omit [Field α] [DecidableEq α] in
theorem run_kind (before : List VisCall) (c : VisCall) (rest : List VisCall) (h : plottingRunCalls = before ++ c :: rest) :
    (before.findSome? VisCall.asks <|> c.asks) ≠ some true := by
  have hlen := congrArg List.length h
  simp only [plottingRunCalls, List.length_cons, List.length_nil, List.length_append] at hlen
  have hb : before = plottingRunCalls.take before.length := by rw [h]; simp
  have hc : some c = plottingRunCalls[before.length]? := by rw [h]; simp
  have hl : before.length < 10 := by omega
  rw [hb]
  generalize before.length = n at hl hc
  rcases n with _ | _ | _ | _ | _ | _ | _ | _ | _ | _ | n
  all_goals first | omega | (simp only [plottingRunCalls, List.getElem?_cons_zero, List.getElem?_cons_succ, Option.some.injEq] at hc; subst hc; decide)

omit [Field α] [DecidableEq α] in
/-- **C80, what is plotted:** `HarmonisationPlottingOp.run` makes the scatter plot and the plot of monthly means of every residual, and both plots of the measurands of one sensor against
those of the other. -/
theorem C80_run_plots : (∀ q ∈ [Quantity.kres_nom_nom, .kres_harm_harm, .kres_nom_harm], VisCall.scatter q ∈ plottingRunCalls ∧ VisCall.scatterMonthly q ∈ plottingRunCalls) ∧
    VisCall.scatterNominal ∈ plottingRunCalls ∧ VisCall.scatterHarmonised ∈ plottingRunCalls := by
  decide

/-- **C79 is false of the plotting tool:** every scatter plot that `HarmonisationPlottingOp.run` makes, also of the residuals after harmonisation, shows the values of the match-up's own
parameters. -/
theorem C79_plotting_run (hp : PlotFiles env ds sd mu ms) (hown : AllMeasurands sd mu ds own) (hharm : AllMeasurands (harmonisedData r sd) mu ds harm) (hdraw : DrawOk draw) :
    ∃ N, ∀ fuel, N ≤ fuel → ∀ (before rest : List VisCall) (q : Quantity), plottingRunCalls = before ++ .scatter q :: rest →
      ∃ out pos, (scatterPlot draw q ((newVis (some ms) (some r)).after draw fuel before)).1 = .ok out ∧ PlottedPositions (ds.map (·.M)) pos ∧
        DrawnAt (ds.map (·.M)) (pairLabels " - " ds) pos (q.over env ds own) (timesOf env ds) out := by
  obtain ⟨N, hN⟩ := fuel_files hp hown hharm
  refine ⟨N, fun fuel hf before rest q hrun => ?_⟩
  have hI := history_inv hp hown hharm hdraw (hN fuel hf) before
  obtain ⟨out, v', e1, e2, -, p, hp1, hp2⟩ := scatter_does (hp.ready hown hharm).1 hdraw hI q
  rw [shown_own hp hown hharm (.inl (show (before.findSome? VisCall.asks <|> q.asks) ≠ some true from run_kind before (.scatter q) rest hrun))] at hp2
  exact ⟨out, p, by rw [e1], e2.i_positions p hp1, hp2⟩

/-- What "computed with the parameters of the result" means: replacing the parameters of the match-up by those of the result and evaluating is evaluating the match-up whose sensor data
have these parameters. -/
theorem C79_replacing_parameters {dflt : AdjModel α} (hn : (sd.map (·.1)).Nodup) (h : setSensorData dflt mu sd = .ok ms) (r : List α × List String) :
    ∃ ms', setSensorData dflt mu (harmonisedData r sd) = .ok ms' ∧ ∀ arg, evaluateAdjusted (ms.withParameters r.1 r.2) arg = evaluateAdjusted ms' arg :=
  withParameters_evaluate hn h r

omit [DecidableEq α] in
/-- **C79, failures:** when the measurands cannot be evaluated with the parameters of the result, the match-up keeps these parameters: the exception is raised before the old ones are put
back, and every later evaluation fails as well. -/
theorem C79_parameters_lost {v : Vis α} {old : List String} {e : PyErr} (hms : v.ms = some ms) (hr : v.result = some r) (hp : ms.mu.idx.parameter_sensor = some old)
    (h1 : v.full .L1_harm = none) (h2 : v.full .L2_harm = none) (he : evaluateAdjusted (ms.withParameters r.1 r.2) (.num 0) = .error e) :
    (getL1Harm v).1 = .error .valueError ∧ (getL1Harm v).2 = { v with ms := some (ms.withParameters r.1 r.2) } ∧
    (getL2Harm (getL1Harm v).2).1 = .error .valueError ∧ (getL1Harm (getL1Harm v).2).1 = .error .valueError := by
  have hx : getL1Harm v = (.error .valueError, { v with ms := some (ms.withParameters r.1 r.2) }) := by
    unfold getL1Harm
    simp only [h1, hms, hp, hr, he]
  rw [hx]
  refine ⟨rfl, rfl, ?_, ?_⟩
  · unfold getL2Harm
    simp only [h2, he]
  · unfold getL1Harm
    simp only [h1, hr]
    have hp' : (ms.withParameters r.1 r.2).mu.idx.parameter_sensor = some r.2 := rfl
    have he' : evaluateAdjusted ((ms.withParameters r.1 r.2).withParameters r.1 r.2) (.num 0) = .error e := he
    simp only [hp', he']

/-! ### C80 -/

/-- **C80, one set of positions.** After any history of calls, a scatter plot of a quantity draws for every series, labelled with the names of its two sensors, the quantity against the
time, match-up by match-up, at admissible positions; and any later scatter plot of any quantity, and the plot of the nominal measurands of the first sensors against those of the second,
are drawn at the same positions. -/
theorem C80_same_matchups (hp : PlotFiles env ds sd mu ms) (hown : AllMeasurands sd mu ds own) (hharm : AllMeasurands (harmonisedData r sd) mu ds harm) (hdraw : DrawOk draw) :
    ∃ N, ∀ fuel, N ≤ fuel → ∀ (calls more : List VisCall) (q q' : Quantity), ∃ pos out out' out'' L L',
      PlottedPositions (ds.map (·.M)) pos ∧ (L = own ∨ L = harm) ∧ (L' = own ∨ L' = harm) ∧
      (scatterPlot draw q ((newVis (some ms) (some r)).after draw fuel calls)).1 = .ok out ∧
      DrawnAt (ds.map (·.M)) (pairLabels " - " ds) pos (q.over env ds L) (timesOf env ds) out ∧
      (scatterPlot draw q' ((newVis (some ms) (some r)).after draw fuel (calls ++ .scatter q :: more))).1 = .ok out' ∧
      DrawnAt (ds.map (·.M)) (pairLabels " - " ds) pos (q'.over env ds L') (timesOf env ds) out' ∧
      (scatterPair draw .L1_nom .L2_nom ((newVis (some ms) (some r)).after draw fuel (calls ++ .scatter q :: more))).1 = .ok out'' ∧
      DrawnAt (ds.map (·.M)) (pairLabels " - " ds) pos (nominalOf env "nominal_measurand1" ds) (nominalOf env "nominal_measurand2" ds) out'' := by
  obtain ⟨N, hN⟩ := fuel_files hp hown hharm
  refine ⟨N, fun fuel hf calls more q q' => ?_⟩
  have hr := (hp.ready hown hharm).1
  have hsh : ∀ k q, ∃ L, (L = own ∨ L = harm) ∧
      shownBy (nominalOf env "nominal_measurand1" ds) (nominalOf env "nominal_measurand2" ds) own harm ms.mu.ks k q = q.over env ds L := by
    intro k q
    by_cases hk : k = some true
    · exact ⟨harm, .inr rfl, shown_harm hp hown hharm (.inl hk)⟩
    · exact ⟨own, .inl rfl, shown_own hp hown hharm (.inl hk)⟩
  have hI := history_inv hp hown hharm hdraw (hN fuel hf) calls
  obtain ⟨out, v1, e1, e2, -, p, p1, p2⟩ := scatter_does hr hdraw hI q
  have hv1 : ((newVis (some ms) (some r)).after draw fuel (calls ++ .scatter q :: more)) = v1.after draw fuel more := by
    unfold Vis.after
    rw [List.foldl_append, List.foldl_cons]
    congr 1
    show (VisM.andThen (scatterPlot draw q) (fun x => VisM.ret (VisOut.dated x)) ((newVis (some ms) (some r)).after draw fuel calls)).2 = v1
    unfold VisM.andThen
    rw [e1]
    rfl
  obtain ⟨hI2, hkeep⟩ := after_inv hr hdraw (hN fuel hf) more _ v1 e2
  rw [hv1]
  obtain ⟨out', v2, g1, g2, g3, p', p1', p2'⟩ := scatter_does hr hdraw hI2 q'
  obtain ⟨out'', v3, f1, f2, f3, p'', p1'', p2''⟩ := scatterPair_does hr hdraw hI2 .L1_nom .L2_nom (by simp only [Quantity.asks, orElse_none])
  rw [g3 p (hkeep p p1)] at p1'
  cases p1'
  rw [f3 p (hkeep p p1)] at p1''
  cases p1''
  obtain ⟨L, hL, hs⟩ := hsh (calls.findSome? VisCall.asks <|> q.asks) q
  obtain ⟨L', hL', hs'⟩ := hsh (((calls.findSome? VisCall.asks <|> q.asks) <|> more.findSome? VisCall.asks) <|> q'.asks) q'
  rw [hs] at p2
  rw [hs'] at p2'
  have n1 := shown_own hp hown hharm (k := ((calls.findSome? VisCall.asks <|> q.asks) <|> more.findSome? VisCall.asks) <|> Quantity.L1_nom.asks) (q := .L1_nom) (.inr rfl)
  have n2 := shown_own hp hown hharm (k := ((calls.findSome? VisCall.asks <|> q.asks) <|> more.findSome? VisCall.asks) <|> Quantity.L1_nom.asks) (q := .L2_nom) (.inr rfl)
  rw [n1, n2] at p2''
  exact ⟨p, out, out', out'', L, L', e2.i_positions p p1, hL, hL', by rw [e1], p2, by rw [g1], p2', by rw [f1], p2''⟩

omit [Field α] [DecidableEq α] in
theorem share_sum (S : Nat) (hS : 0 < S) : ∀ sizes : List Nat, (sizes.map fun M => M * 10000 / S).sum ≤ sizes.sum * 10000 / S
  | [] => by simp
  | M :: sizes => by
    rw [List.map_cons, List.sum_cons, List.sum_cons, Nat.add_mul]
    have := share_sum S hS sizes
    exact le_trans (Nat.add_le_add_left this _) Nat.div_add_div_le_add_div

omit [Field α] [DecidableEq α] in
/-- **C80, number of points.** At most 10000 match-ups are plotted; all of them when there are no more. -/
theorem C80_at_most_10000 {sizes : List Nat} {pos : List (List Nat)} (h : PlottedPositions sizes pos) :
    (pos.map List.length).sum ≤ 10000 ∧ (sizes.sum ≤ 10000 → pos = sizes.map List.range ∧ (pos.map List.length).sum = sizes.sum) := by
  obtain ⟨h1, h2⟩ := h
  have hlen : pos.map List.length = (List.range sizes.length).map fun i => (pos.getD i []).length := by
    apply List.ext_getElem
    · simp [h1]
    · intro i a b
      simp only [List.length_map] at a
      simp [a]
  by_cases hs : sizes.sum ≤ 10000
  · have hp : pos = sizes.map List.range := by
      apply List.ext_getElem
      · simp [h1]
      · intro i a b
        simp only [List.length_map] at b
        have := (h2 i _ _ (List.getElem?_eq_getElem b) (List.getElem?_eq_getElem a)).2.2.1 hs
        rw [this]; simp
    have hsum : (pos.map List.length).sum = sizes.sum := by
      rw [hp, List.map_map]
      congr 1
      conv_rhs => rw [← List.map_id sizes]
      apply List.map_congr_left
      intro M _; simp
    exact ⟨by rw [hsum]; exact hs, fun _ => ⟨hp, hsum⟩⟩
  · refine ⟨?_, fun h => absurd h hs⟩
    have hs : 10000 < sizes.sum := by omega
    have : pos.map List.length = sizes.map fun M => M * 10000 / sizes.sum := by
      apply List.ext_getElem
      · simp [h1]
      · intro i a b
        simp only [List.length_map] at a b
        have := (h2 i _ _ (List.getElem?_eq_getElem b) (List.getElem?_eq_getElem a)).2.2.2 hs
        simp [this]
    rw [this]
    refine le_trans (share_sum sizes.sum (by omega) sizes) ?_
    rw [Nat.mul_div_cancel_left _ (by omega)]

/-- **C80, monthly means.** After any history of calls, the plot of monthly means of a quantity shows for every series, labelled with its sensors, one point per month in which the series has
a match-up after the first instant of the month, at the beginning of the month: the mean over these match-ups. (Match-ups at the first instant of a month are left out: C51.) -/
theorem C80_monthly_means (hp : PlotFiles env ds sd mu ms) (hown : AllMeasurands sd mu ds own) (hharm : AllMeasurands (harmonisedData r sd) mu ds harm) (hdraw : DrawOk draw) :
    ∃ N, ∀ fuel, N ≤ fuel → ∀ (calls : List VisCall) (q : Quantity), ∃ out L, (L = own ∨ L = harm) ∧
      (scatterMonthly fuel q ((newVis (some ms) (some r)).after draw fuel calls)).1 = .ok out ∧ out.length = ds.length ∧
      ∀ (i : Nat) (d : Dataset α), ds[i]? = some d → ∃ means : List (α × DateTime), out[i]? = some (d.s1.name ++ " - " ++ d.s2.name, means.map fun e => (e.2, e.1)) ∧
        MonthlyMeans (((q.over env ds L).drop ((ds.take i).map (·.M)).sum).take d.M) ((List.range d.M).map fun j => env.toDate (d.time2 j)) means := by
  obtain ⟨N, hN⟩ := monthly_files hp hown hharm
  refine ⟨N, fun fuel hf calls q => ?_⟩
  have hr := (hp.ready hown hharm).1
  have hfo : FuelOk ms (nominalOf env "nominal_measurand1" ds) (nominalOf env "nominal_measurand2" ds) own harm (timesOf env ds) fuel :=
    fun k q => by obtain ⟨l, hl, -⟩ := hN fuel hf k q; exact ⟨l, hl⟩
  have hI := history_inv hp hown hharm hdraw hfo calls
  obtain ⟨out, v1, e1, e2, -, l, hl, hd1, hd2⟩ := scatterMonthly_does hr hfo hI q
  obtain ⟨l', hl', hlen, hser⟩ := hN fuel hf (calls.findSome? VisCall.asks <|> q.asks) q
  rw [hl] at hl'
  cases hl'
  obtain ⟨L, hL, hs⟩ : ∃ L, (L = own ∨ L = harm) ∧ shownBy (nominalOf env "nominal_measurand1" ds) (nominalOf env "nominal_measurand2" ds) own harm ms.mu.ks
      (calls.findSome? VisCall.asks <|> q.asks) q = q.over env ds L := by
    by_cases hk : (calls.findSome? VisCall.asks <|> q.asks) = some true
    · exact ⟨harm, .inr rfl, shown_harm hp hown hharm (.inl hk)⟩
    · exact ⟨own, .inl rfl, shown_own hp hown hharm (.inl hk)⟩
  rw [hs] at hser
  refine ⟨out, L, hL, by rw [e1], by rw [hd1, hlen]; simp, ?_⟩
  intro i d hd
  obtain ⟨s, hs1, hs2⟩ := hser i d.M (by rw [List.getElem?_map, hd]; rfl)
  obtain ⟨label, g1, g2⟩ := hd2 i s hs1
  have hlab : label = d.s1.name ++ " - " ++ d.s2.name := by
    unfold pairLabels at g1
    rw [List.getElem?_map, hd] at g1
    simpa using g1.symm
  refine ⟨s, by rw [g2, hlab], ?_⟩
  have ht : slice (timesOf env ds) ((ds.map (·.M)).take i).sum (((ds.map (·.M)).take i).sum + d.M) = (List.range d.M).map fun j => env.toDate (d.time2 j) := by
    have := series_slice (ds := ds) (fun d => (List.range d.M).map fun j => env.toDate (d.time2 j)) (by simp) hd
    rwa [take_sum_next (show (ds.map (·.M))[i]? = some d.M by rw [List.getElem?_map, hd]; rfl)] at this
  rw [ht] at hs2
  have hv : slice (q.over env ds L) ((ds.map (·.M)).take i).sum (((ds.map (·.M)).take i).sum + d.M) = ((q.over env ds L).drop ((ds.take i).map (·.M)).sum).take d.M := by
    unfold slice
    rw [Nat.add_sub_cancel_left, ← List.map_take]
  rwa [hv] at hs2

omit [DecidableEq α] in
theorem bind_err {β γ : Type} {x : VisM α β} {f : β → VisM α γ} {v v' : Vis α} {e : PyErr} (h : x v = (.error e, v')) : (x >>= f) v = (.error e, v') := by
  show VisM.andThen x f v = _
  unfold VisM.andThen
  rw [h]

omit [DecidableEq α] in
theorem bind_step {β γ : Type} {x : VisM α β} {f : β → VisM α γ} {v v' : Vis α} {b : β} (h : x v = (.ok b, v')) : (x >>= f) v = f b v' := by
  show VisM.andThen x f v = _
  unfold VisM.andThen
  rw [h]

omit [DecidableEq α] in
/-- A computation that never succeeds leads to one that never succeeds. -/
theorem never_bind {β γ : Type} {x : VisM α β} {f : β → VisM α γ} {v : Vis α} (h : ∀ b v', x v = (.ok b, v') → ∃ e, (f b v').1 = .error e) : ∃ e, ((x >>= f) v).1 = .error e := by
  rcases hx : x v with ⟨b | b, v'⟩
  · exact ⟨b, by rw [bind_err hx]⟩
  · obtain ⟨e, he⟩ := h b v' hx
    exact ⟨e, by rw [bind_step hx, he]⟩

omit [DecidableEq α] in
/-- **C80 is false of the density plots:** none is ever drawn. -/
theorem C80_no_density (draw : Nat → Nat → Nat → List Nat) (q : Quantity) (v : Vis α) : ∃ e, (density draw q v).1 = .error e := by
  unfold density
  exact never_bind fun _ _ _ => never_bind fun _ _ _ => never_bind fun _ _ _ => ⟨_, rfl⟩

/-- **C80, number of samples.** `get_musamples_total` gives nothing on a new object, and the number of plotted match-ups once positions have been drawn, whatever was called before. -/
theorem C80_total (hp : PlotFiles env ds sd mu ms) (hown : AllMeasurands sd mu ds own) (hharm : AllMeasurands (harmonisedData r sd) mu ds harm) (hdraw : DrawOk draw) :
    (getTotal (newVis (some ms) (some r))).1 = .ok none ∧
    ∃ N, ∀ fuel, N ≤ fuel → ∀ calls : List VisCall, ∃ pos, PlottedPositions (ds.map (·.M)) pos ∧
      (getPositions draw ((newVis (some ms) (some r)).after draw fuel calls)).1 = .ok (some pos) ∧
      (getTotal ((newVis (some ms) (some r)).after draw fuel (calls ++ [.positions]))).1 = .ok (some (pos.map List.length).sum) := by
  refine ⟨rfl, ?_⟩
  obtain ⟨N, hN⟩ := fuel_files hp hown hharm
  refine ⟨N, fun fuel hf calls => ?_⟩
  have hr := (hp.ready hown hharm).1
  have hI := history_inv hp hown hharm hdraw (hN fuel hf) calls
  obtain ⟨b, v1, e1, e2, -, p, rfl, p1, p2⟩ := getPositions_does hr hdraw hI
  refine ⟨p, p2, by rw [e1], ?_⟩
  have hv1 : ((newVis (some ms) (some r)).after draw fuel (calls ++ [.positions])) = v1 := by
    unfold Vis.after
    rw [List.foldl_append, List.foldl_cons, List.foldl_nil]
    show (VisM.andThen (getPositions draw) (fun x => VisM.ret (VisOut.positions x)) ((newVis (some ms) (some r)).after draw fuel calls)).2 = v1
    unfold VisM.andThen
    rw [e1]
    rfl
  rw [hv1]
  obtain ⟨n, v2, f1, -, -, rfl, f3⟩ := getTotal_does e2
  rw [f1, f3, p1]
  rfl

/-! Files without the nominal measurand of the second sensors -/

/-- An object whose match-up has no nominal measurand of the second sensors; nothing has been sampled. -/
structure Stuck (v : Vis α) : Prop where
  s_ms : ∃ m e, v.ms = some m ∧ m.mu.getAdditionalData "nominal_measurand2" none = .error e
  s_nom : v.full .L2_nom = none
  s_kres : v.full .kres_nom_nom = none
  s_pos : v.positions = none
  s_samples : ∀ q, v.samples q = none
  s_times : v.timesSamples = none

/-- A computation that keeps a property of the state. -/
def KeepsP {β : Type} (P : Vis α → Prop) (x : VisM α β) : Prop := ∀ v, P v → P (x v).2

omit [Field α] [DecidableEq α] in
theorem KeepsP.bind {β γ : Type} {P : Vis α → Prop} {x : VisM α β} {f : β → VisM α γ} (hx : KeepsP P x) (hf : ∀ b, KeepsP P (f b)) : KeepsP P (x >>= f) := by
  intro v hv
  show P (VisM.andThen x f v).2
  unfold VisM.andThen
  have := hx v hv
  split <;> rename_i h <;> rw [h] at this
  · exact hf _ _ this
  · exact this

omit [Field α] [DecidableEq α] in
theorem KeepsP.memo {β : Type} {P : Vis α → Prop} {get : Vis α → Option β} {set : β → Vis α → Vis α} {x : VisM α β} (hx : KeepsP P x)
    (hs : ∀ b v v', P v → x v = (.ok b, v') → P v' → P (set b v')) : KeepsP P (memo get set x) := by
  intro v hv
  unfold Verif.memo
  have := hx v hv
  split
  · exact hv
  · split <;> rename_i h <;> rw [h] at this
    · exact hs _ _ _ hv h this
    · exact this

omit [Field α] [DecidableEq α] in
theorem KeepsP.same {β : Type} {P : Vis α → Prop} {x : VisM α β} (h : ∀ v, (x v).2 = v) : KeepsP P x := fun v hv => by rw [h]; exact hv

omit [Field α] [DecidableEq α] in
theorem theMatchUp_same (e : PyErr) (v : Vis α) : (theMatchUp e v).2 = v := by
  unfold theMatchUp
  split <;> rfl

omit [Field α] [DecidableEq α] in
theorem Stuck.nominal {v : Vis α} (h : Stuck v) : getNominal .L2_nom "nominal_measurand2" v = (.error .valueError, v) := by
  obtain ⟨m, e, h1, h2⟩ := h.s_ms
  have hx : (theMatchUp .valueError >>= fun ms : Evaluable α DateTime => orValueError (.lift (ms.mu.getAdditionalData "nominal_measurand2" none))) v = (.error .valueError, v) := by
    have : theMatchUp .valueError v = (.ok m, v) := by unfold theMatchUp; rw [h1]
    show VisM.andThen _ _ v = _
    unfold VisM.andThen
    rw [this]
    simp only [orValueError, VisM.lift, h2]
  unfold getNominal memo
  simp only [h.s_nom, hx]

omit [DecidableEq α] in
theorem Stuck.kres {v : Vis α} (h : Stuck v) : getKresNomNom v = (.error .valueError, v) := by
  have : residualOf (getNominal .L2_nom "nominal_measurand2") (getNominal .L1_nom "nominal_measurand1") v = (.error .valueError, v) := by
    unfold residualOf
    exact bind_err h.nominal
  unfold getKresNomNom memo
  simp only [h.s_kres, this]

omit [DecidableEq α] in
theorem Stuck.positions {v : Vis α} (h : Stuck v) : getPositions draw v = (.error .valueError, v) := by
  obtain ⟨m, e, h1, h2⟩ := h.s_ms
  unfold getPositions
  simp only [h1]
  refine bind_err ?_
  unfold memo
  simp only [h.s_pos]
  rw [bind_err h.kres]

omit [DecidableEq α] in
theorem Stuck.musample {β : Type} {v : Vis α} (h : Stuck v) (vals : Option (List β)) : musampleValues draw vals v = (.error .valueError, v) := by
  unfold musampleValues
  exact bind_err h.positions

omit [Field α] [DecidableEq α] in
theorem nominal1_keeps : KeepsP (Stuck (α := α)) (getNominal .L1_nom "nominal_measurand1") := by
  unfold getNominal
  refine KeepsP.memo ?_ ?_
  · refine KeepsP.bind (KeepsP.same (theMatchUp_same _)) fun ms => KeepsP.same fun v => ?_
    unfold orValueError VisM.lift
    split <;> rename_i h <;> simp only [Prod.mk.injEq] at h <;> exact h.2.symm
  · intro b v v' _ _ h
    exact ⟨h.s_ms, by simpa [Function.update] using h.s_nom, by simpa [Function.update] using h.s_kres, h.s_pos, h.s_samples, h.s_times⟩

omit [Field α] [DecidableEq α] in
theorem setFull_stuck {v : Vis α} (h : Stuck v) {q : Quantity} (h1 : q ≠ .L2_nom) (h2 : q ≠ .kres_nom_nom) (b : List α) :
    Stuck { v with full := Function.update v.full q (some b) } :=
  ⟨h.s_ms, by simp only [Function.update_of_ne h1.symm]; exact h.s_nom, by simp only [Function.update_of_ne h2.symm]; exact h.s_kres, h.s_pos, h.s_samples, h.s_times⟩

omit [DecidableEq α] in
theorem L1Harm_keeps : KeepsP (Stuck (α := α)) getL1Harm := by
  intro v hv
  obtain ⟨m, e, h1, h2⟩ := hv.s_ms
  have hf : ∀ L : List α × List α, (v.setHarm L).full .L2_nom = none ∧ (v.setHarm L).full .kres_nom_nom = none := by
    intro L
    exact ⟨by simpa [Vis.setHarm, Function.update] using hv.s_nom, by simpa [Vis.setHarm, Function.update] using hv.s_kres⟩
  unfold getL1Harm
  split
  · exact hv
  · rw [h1]
    simp only
    split
    · split
      · rename_i L _
        exact ⟨⟨_, e, rfl, h2⟩, (hf L).1, (hf L).2, hv.s_pos, hv.s_samples, hv.s_times⟩
      · exact ⟨⟨_, e, rfl, h2⟩, hv.s_nom, hv.s_kres, hv.s_pos, hv.s_samples, hv.s_times⟩
    · exact hv

omit [DecidableEq α] in
theorem L2Harm_keeps : KeepsP (Stuck (α := α)) getL2Harm := by
  intro v hv
  obtain ⟨m, e, h1, h2⟩ := hv.s_ms
  unfold getL2Harm
  split
  · exact hv
  · rw [h1]
    simp only
    split
    · exact ⟨⟨m, e, h1, h2⟩, by simpa [Vis.setHarm, Function.update] using hv.s_nom, by simpa [Vis.setHarm, Function.update] using hv.s_kres, hv.s_pos, hv.s_samples, hv.s_times⟩
    · exact hv

omit [DecidableEq α] in
theorem nominal2_keeps : KeepsP (Stuck (α := α)) (getNominal .L2_nom "nominal_measurand2") := fun v hv => by rw [hv.nominal]; exact hv

omit [DecidableEq α] in
theorem kresHarm_keeps {q : Quantity} (h1 : q ≠ .L2_nom) (h2 : q ≠ .kres_nom_nom) {x : VisM α (List α)} (hx : KeepsP (Stuck (α := α)) x) : KeepsP (Stuck (α := α)) (getKresHarm q x) := by
  have hm : KeepsP (Stuck (α := α)) (memo (·.full q) (fun b v => { v with full := Function.update v.full q (some b) }) (residualOf x getL1Harm)) := by
    refine KeepsP.memo ?_ fun b v v' _ _ h => setFull_stuck h h1 h2 b
    exact KeepsP.bind hx fun _ => KeepsP.bind L1Harm_keeps fun _ => KeepsP.bind (KeepsP.same fun _ => rfl) fun _ => KeepsP.bind (KeepsP.same (theMatchUp_same _)) fun _ => KeepsP.same fun _ => rfl
  intro v hv
  unfold getKresHarm orReturned
  have := hm v hv
  split <;> rename_i h <;> rw [h] at this <;> exact this

omit [DecidableEq α] in
theorem full_keeps (q : Quantity) : KeepsP (Stuck (α := α)) (getFull q) := by
  have hp : ∀ {β : Type} (b : β), KeepsP (Stuck (α := α)) (pure b) := fun b => KeepsP.same fun _ => rfl
  cases q with
  | L1_nom => exact KeepsP.bind nominal1_keeps fun _ => hp _
  | L2_nom => exact KeepsP.bind nominal2_keeps fun _ => hp _
  | kres_nom_nom => exact KeepsP.bind (fun v hv => by rw [hv.kres]; exact hv) fun _ => hp _
  | L1_harm => exact KeepsP.bind L1Harm_keeps fun _ => hp _
  | L2_harm => exact KeepsP.bind L2Harm_keeps fun _ => hp _
  | kres_harm_harm => exact kresHarm_keeps (by decide) (by decide) L2Harm_keeps
  | kres_nom_harm => exact kresHarm_keeps (by decide) (by decide) nominal2_keeps

omit [DecidableEq α] in
/-- Nothing can be sampled. -/
theorem Stuck.samples {v : Vis α} (h : Stuck v) (q : Quantity) : ∃ e v', getSamples draw q v = (.error e, v') ∧ Stuck v' := by
  have hx : ∃ e v', (getFull q >>= fun l => musampleValues draw l) v = (.error e, v') ∧ Stuck v' := by
    have hk := full_keeps q v h
    rcases hf : getFull q v with ⟨e | b, v'⟩ <;> rw [hf] at hk
    · exact ⟨e, v', bind_err hf, hk⟩
    · exact ⟨.valueError, v', by rw [bind_step hf, Stuck.musample hk], hk⟩
  obtain ⟨e, v', h1, h2⟩ := hx
  refine ⟨e, v', ?_, h2⟩
  unfold getSamples memo
  simp only [h.s_samples q, h1]

omit [DecidableEq α] in
theorem times_keeps : KeepsP (Stuck (α := α)) getTimes := by
  unfold getTimes
  refine KeepsP.memo (KeepsP.bind (KeepsP.same (theMatchUp_same _)) fun ms => KeepsP.same fun v => ?_) fun b v v' _ _ h => ⟨h.s_ms, h.s_nom, h.s_kres, h.s_pos, h.s_samples, h.s_times⟩
  cases ms.mu.time2 <;> rfl

omit [DecidableEq α] in
theorem Stuck.timesSamples {v : Vis α} (h : Stuck v) : ∃ e v', getTimesSamples draw v = (.error e, v') ∧ Stuck v' := by
  have hx : ∃ e v', (getTimes >>= fun t => musampleValues draw (some t)) v = (.error e, v') ∧ Stuck v' := by
    have hk := times_keeps v h
    rcases hf : getTimes v with ⟨e | b, v'⟩ <;> rw [hf] at hk
    · exact ⟨e, v', bind_err hf, hk⟩
    · exact ⟨.valueError, v', by rw [bind_step hf, Stuck.musample hk], hk⟩
  obtain ⟨e, v', h1, h2⟩ := hx
  refine ⟨e, v', ?_, h2⟩
  unfold getTimesSamples memo
  simp only [h.s_times, h1]

omit [DecidableEq α] in
theorem monthly_keeps (fuel : Nat) (q : Quantity) : KeepsP (Stuck (α := α)) (getMonthly fuel q) := by
  unfold getMonthly
  refine KeepsP.memo (KeepsP.bind (full_keeps q) fun l => ?_) fun b v v' _ _ h => ⟨h.s_ms, h.s_nom, h.s_kres, h.s_pos, h.s_samples, h.s_times⟩
  refine KeepsP.bind (KeepsP.same (theMatchUp_same _)) fun ms => KeepsP.bind times_keeps fun t => KeepsP.same fun v => ?_
  split <;> rfl

omit [DecidableEq α] in
theorem labels_keeps : KeepsP (Stuck (α := α)) getLabels := by
  unfold getLabels
  exact KeepsP.memo (KeepsP.bind (KeepsP.same (theMatchUp_same _)) fun ms => KeepsP.same fun v => rfl) fun b v v' _ _ h => ⟨h.s_ms, h.s_nom, h.s_kres, h.s_pos, h.s_samples, h.s_times⟩

omit [DecidableEq α] in
theorem suffixes_keeps : KeepsP (Stuck (α := α)) getSuffixes := by
  unfold getSuffixes
  exact KeepsP.memo (KeepsP.bind (KeepsP.same (theMatchUp_same _)) fun ms => KeepsP.same fun v => rfl) fun b v v' _ _ h => ⟨h.s_ms, h.s_nom, h.s_kres, h.s_pos, h.s_samples, h.s_times⟩

omit [DecidableEq α] in
theorem total_keeps : KeepsP (Stuck (α := α)) getTotal := by
  intro v hv
  unfold getTotal
  split
  · exact hv
  · exact hv
  · exact ⟨hv.s_ms, hv.s_nom, hv.s_kres, hv.s_pos, hv.s_samples, hv.s_times⟩

omit [DecidableEq α] in
theorem muTotal_keeps : KeepsP (Stuck (α := α)) getMuTotal := by
  intro v hv
  unfold getMuTotal
  split
  · exact hv
  · exact hv
  · split
    · exact ⟨hv.s_ms, hv.s_nom, hv.s_kres, hv.s_pos, hv.s_samples, hv.s_times⟩
    · exact hv

omit [DecidableEq α] in
/-- Every call leaves the object stuck. -/
theorem exec_stuck (fuel : Nat) (c : VisCall) : KeepsP (Stuck (α := α)) (c.exec draw fuel) := by
  have hp : ∀ {β : Type} (b : β), KeepsP (Stuck (α := α)) (pure b) := fun b => KeepsP.same fun _ => rfl
  have hs : ∀ (q : Quantity) {γ : Type} (f : List (List α) → VisM α γ), KeepsP (Stuck (α := α)) (getSamples draw q >>= f) := by
    intro q γ f v hv
    obtain ⟨e, v', h1, h2⟩ := hv.samples (draw := draw) q
    rw [bind_err h1]
    exact h2
  have ht : ∀ {γ : Type} (f : List (List DateTime) → VisM α γ), KeepsP (Stuck (α := α)) (getTimesSamples draw >>= f) := by
    intro γ f v hv
    obtain ⟨e, v', h1, h2⟩ := hv.timesSamples (draw := draw)
    rw [bind_err h1]
    exact h2
  have hfin : ∀ {β γ : Type} {x : VisM α β} (f : β → γ), KeepsP (Stuck (α := α)) x → KeepsP (Stuck (α := α)) (x >>= fun b => pure (f b)) := fun f hx => KeepsP.bind hx fun _ => hp _
  cases c with
  | full q => exact hfin _ (full_keeps q)
  | samples q => exact hs q _
  | monthly q => exact hfin _ (monthly_keeps fuel q)
  | times => exact hfin _ times_keeps
  | timesSamples => exact ht _
  | positions =>
    intro v hv
    show Stuck ((getPositions draw >>= _) v).2
    rw [bind_err hv.positions]
    exact hv
  | total => exact hfin _ total_keeps
  | muTotal => exact hfin _ muTotal_keeps
  | labels => exact hfin _ labels_keeps
  | suffixes => exact hfin _ suffixes_keeps
  | scatter q => exact hfin _ (hs q _)
  | scatterMonthly q => exact hfin _ (KeepsP.bind (monthly_keeps fuel q) fun _ => KeepsP.bind labels_keeps fun _ => KeepsP.same fun _ => rfl)
  | scatterNominal => exact hfin _ (hs _ _)
  | scatterHarmonised => exact hfin _ (hs _ _)
  | density q => exact hfin (fun _ => VisOut.nothing) (hs q _)

omit [DecidableEq α] in
/-- **C80 is false of files without nominal measurands:** when the match-up has none for the second sensors, no scatter plot can be made, whatever was called before - not even of
quantities that need no nominal measurands. -/
theorem C80_nominal_needed {e : PyErr} (h : ms.mu.getAdditionalData "nominal_measurand2" none = .error e) (fuel : Nat) (calls : List VisCall) (q : Quantity) :
    ∃ e', (getSamples draw q ((newVis (some ms) (some r)).after draw fuel calls)).1 = .error e' := by
  have h0 : Stuck (newVis (some ms) (some r)) := ⟨⟨ms, e, rfl, h⟩, rfl, rfl, rfl, fun _ => rfl, rfl⟩
  have hall : ∀ (calls : List VisCall) (v : Vis α), Stuck v → Stuck (v.after draw fuel calls) := by
    intro calls
    induction calls with
    | nil => exact fun v hv => hv
    | cons c calls ih =>
      intro v hv
      exact ih _ (exec_stuck fuel c v hv)
  obtain ⟨e', v', h1, -⟩ := (hall calls _ h0).samples (draw := draw) q
  exact ⟨e', by rw [h1]⟩

end
/-! ### A concrete case -/
namespace Fixture

/-- Opening with dates: the files' times are minutes after the beginning of 12 March 2001. -/
def visEnv : ReadEnv ℚ DateTime where
  nan := -99
  fill := -1
  toInt := id
  rss := fun a b => a + b
  dateZero := ⟨1970, 1, 1, 0, 0⟩
  toDate := fun x => ⟨2001, 3, 12, 0, (60000000 * x).num.toNat⟩
  enumStr := List.eraseDups
  enumNat := List.eraseDups

/-- A file with nominal measurands. -/
def visFile : Dataset ℚ :=
  { rolling with vars := [("nominal_measurand1", ⟨["M"], [1, 2, 3]⟩), ("nominal_measurand2", ⟨["M"], [4, 6, 9]⟩)] }

/-- The sum of the two covariates times the parameter (1 if there is none). -/
def visModel : SensorModel ℚ DateTime := fun X a _ _ _ _ => do
  let x0 ← pyGet X 0
  let x1 ← pyGet X 1
  pure (List.zipWith (fun u v => a.getD 0 1 * (u + v)) x0 x1, none)

def visModels : SensorData ℚ (SensorModel ℚ DateTime) (AdjModel ℚ) :=
  [("A", { parameter := [], constant := [], model := visModel }), ("B", { parameter := [3], constant := [], model := visModel })]

/-- The harmonised parameter of B is 5. -/
def visResult : List ℚ × List String := ([5], ["B"])

theorem visFile_facts : ∃ mu ms, openMatchUp visEnv [visFile] = .ok mu ∧ setSensorData defaultAdjustment mu visModels = .ok ms ∧
    (∀ n ∈ ["A", "B"], mu.getSensorAcrossTrackIndex 1 n = .ok none ∧ mu.getSensorAlongTrackIndex 1 n = .ok none) ∧
    ∃ ta tb, mu.getSensorTime 1 "A" = .ok ta ∧ mu.getSensorTime 1 "B" = .ok tb := by
  obtain ⟨p, h1, h2⟩ := check_ok' (x := (do
      let mu ← openMatchUp visEnv [visFile]
      let _ ← setSensorData defaultAdjustment mu visModels
      let a1 ← mu.getSensorAcrossTrackIndex 1 "A"
      let b1 ← mu.getSensorAcrossTrackIndex 1 "B"
      let a2 ← mu.getSensorAlongTrackIndex 1 "A"
      let b2 ← mu.getSensorAlongTrackIndex 1 "B"
      let _ ← mu.getSensorTime 1 "A"
      let _ ← mu.getSensorTime 1 "B"
      pure [a1, b1, a2, b2] : Py (List (Option (List ℚ)))))
    (fun p => decide (p = [none, none, none, none])) (by decide +kernel)
  obtain ⟨mu, g1, h1⟩ := bind_ok.1 h1
  obtain ⟨ms, g2, h1⟩ := bind_ok.1 h1
  obtain ⟨a1, g3, h1⟩ := bind_ok.1 h1
  obtain ⟨b1, g4, h1⟩ := bind_ok.1 h1
  obtain ⟨a2, g5, h1⟩ := bind_ok.1 h1
  obtain ⟨b2, g6, h1⟩ := bind_ok.1 h1
  obtain ⟨ta, g7, h1⟩ := bind_ok.1 h1
  obtain ⟨tb, g8, h1⟩ := bind_ok.1 h1
  rw [pure_ok] at h1
  subst h1
  simp only [decide_eq_true_eq, List.cons.injEq, and_true] at h2
  obtain ⟨rfl, rfl, rfl, rfl⟩ := h2
  refine ⟨mu, ms, g1, g2, ?_, ta, tb, g7, g8⟩
  intro n hn
  simp only [List.mem_cons, List.not_mem_nil, or_false] at hn
  rcases hn with rfl | rfl
  · exact ⟨g3, g5⟩
  · exact ⟨g4, g6⟩

/-- The hypotheses of the theorems above hold, with measurands that depend on the parameters. -/
theorem vis_case : ∃ mu ms own harm, PlotFiles visEnv [visFile] visModels mu ms ∧ AllMeasurands visModels mu [visFile] own ∧
    AllMeasurands (harmonisedData visResult visModels) mu [visFile] harm ∧ own.1 = harm.1 ∧
    harm.2 = own.2.map (fun x : ℚ => 5 / 3 * x) ∧ own.2 = [330, 336, 354] := by
  obtain ⟨mu, ms, h1, h2, h3, ta, tb, h4, h5⟩ := visFile_facts
  have hA := h3 "A" (by simp)
  have hB := h3 "B" (by simp)
  have hone : ∀ {P : Nat → Dataset ℚ → Prop}, P 0 visFile → ∀ (i : Nat) (d : Dataset ℚ), [visFile][i]? = some d → P i d := by
    intro P hP i d hd
    cases i with
    | zero => cases hd; exact hP
    | succ i => cases hd
  refine ⟨mu, ms, ([20, 22, 28], [330, 336, 354]), ([20, 22, 28], [550, 560, 590]), ?_, ?_, ?_, rfl, by norm_num, rfl⟩
  · refine ⟨fun l => ⟨nodup_eraseDups l, fun _ => mem_eraseDups_iff⟩, ?_, ?_, ?_, ?_, ?_, ?_, by decide +kernel, h1, h2⟩
    · constructor
      · intro d hd
        simp only [List.mem_cons, List.not_mem_nil, or_false] at hd
        subst hd
        show "A" ≠ "B"; decide
      · intro d hd e he s hs t ht _
        simp only [List.mem_cons, List.not_mem_nil, or_false] at hd he hs ht
        subst hd; subst he
        rcases hs with rfl | rfl <;> rcases ht with rfl | rfl <;> rfl
    · intro d hd
      simp only [List.mem_cons, List.not_mem_nil, or_false] at hd
      subst hd
      exact ⟨show 1 ≤ 2 by omega, show 1 ≤ 2 by omega⟩
    · intro d hd
      simp only [List.mem_cons, List.not_mem_nil, or_false] at hd
      subst hd
      exact show 1 ≤ 3 by omega
    · intro n d hd v hv
      simp only [List.mem_cons, List.not_mem_nil, or_false] at hd
      subst hd
      unfold Dataset.var? at hv
      have hm : ∃ k, (k, v) ∈ visFile.vars := by
        cases hf : visFile.vars.find? (fun e => e.1 == n) with
        | none => rw [hf] at hv; cases hv
        | some q =>
          rw [hf] at hv
          cases hv
          exact ⟨q.1, List.mem_of_find?_eq_some hf⟩
      obtain ⟨k, hk⟩ := hm
      simp only [visFile, List.mem_cons, Prod.mk.injEq, List.not_mem_nil, or_false] at hk
      rcases hk with ⟨-, rfl⟩ | ⟨-, rfl⟩ <;> rfl
    · intro n hn
      simp only [List.mem_cons, List.not_mem_nil, or_false] at hn
      rcases hn with rfl | rfl
      · exact ⟨visFile, by simp, _, .head _, rfl⟩
      · exact ⟨visFile, by simp, _, .tail _ (.head _), rfl⟩
    · intro d hd i hi
      simp only [List.mem_cons, List.not_mem_nil, or_false] at hd
      subst hd
      exact ⟨by show 1 ≤ 3; omega, by show 3 ≤ 12; omega, by show 1 ≤ 12; omega, by show 12 ≤ daysInMonth 2001 3; decide, by show 0 < 24; omega⟩
  · refine ⟨fun _ => [20, 22, 28], fun _ => [330, 336, 354], fun _ => [20, 22, 28], fun _ => [330, 336, 354], hone ?_, rfl, rfl⟩
    refine ⟨⟨_, none, none, ta, none, .head _, hA.1, hA.2, h4, ?_, rfl⟩, ⟨_, none, none, tb, none, .tail _ (.head _), hB.1, hB.2, h5, ?_, rfl⟩,
      ⟨_, .head _, rfl, .inl ⟨rfl, rfl⟩⟩, ⟨_, .tail _ (.head _), rfl, .inl ⟨rfl, rfl⟩⟩⟩ <;> kernel_rfl
  · refine ⟨fun _ => [20, 22, 28], fun _ => [550, 560, 590], fun _ => [20, 22, 28], fun _ => [550, 560, 590], hone ?_, rfl, rfl⟩
    refine ⟨⟨_, none, none, ta, none, .head _, hA.1, hA.2, h4, ?_, rfl⟩, ⟨_, none, none, tb, none, .tail _ (.head _), hB.1, hB.2, h5, ?_, rfl⟩,
      ⟨_, .head _, rfl, .inl ⟨rfl, rfl⟩⟩, ⟨_, .tail _ (.head _), rfl, .inl ⟨rfl, rfl⟩⟩⟩ <;> kernel_rfl

end Fixture

/-- **C79 is false of the code**, concretely: asking for the residuals after harmonisation and then for the measurand of the second sensor gives the measurand with the old parameter,
while asking for the measurand of the first sensor before gives the measurand with the harmonised parameter. -/
theorem C79_case {draw : Nat → Nat → Nat → List Nat} (hdraw : DrawOk draw) : ∃ ms : Evaluable ℚ DateTime, ∃ N, ∀ fuel, N ≤ fuel →
    (getFull .L2_harm ((newVis (some ms) (some Fixture.visResult)).after draw fuel [.full .kres_harm_harm])).1 = .ok (some [330, 336, 354]) ∧
    (getFull .L2_harm ((newVis (some ms) (some Fixture.visResult)).after draw fuel [.full .L1_harm])).1 = .ok (some [550, 560, 590]) := by
  obtain ⟨mu, ms, own, harm, h1, h2, h3, h4, h5, h6⟩ := Fixture.vis_case
  obtain ⟨N, hN⟩ := C79_first_sensor_first_partial h1 h2 h3 hdraw
  obtain ⟨N', hN'⟩ := C79_wrong_for_ever h1 h2 h3 hdraw
  refine ⟨ms, max N N', fun fuel hf => ⟨?_, ?_⟩⟩
  · rw [hN' fuel (le_trans (le_max_right _ _) hf) [.full .kres_harm_harm] .L2_harm rfl, ← h6]
    rfl
  · rw [(hN fuel (le_trans (le_max_left _ _) hf) [.full .L1_harm]).2 .L2_harm (.inl rfl)]
    have : harm.2 = [550, 560, 590] := by rw [h5, h6]; norm_num
    rw [← this]
    rfl

/-- Such random numbers exist. -/
example : DrawOk fun _ total n => List.replicate n (total - 1) := by
  intro k total n
  refine ⟨by simp, fun h j hj => ?_⟩
  have := List.eq_of_mem_replicate hj
  omega

end Verif
