import Verif.Lemmas.Binned
import Verif.Lemmas.VisFiles
import Verif.Props.Sound
import Verif.Props.Vis
/-
Binned plots over opened files.
-/
set_option autoImplicit false
set_option linter.unusedSectionVars false
namespace Verif
variable {α : Type} [Field α] [LinearOrder α] [IsStrictOrderedRing α]

/-! ### Specification -/

/-- The value of the `r`-th match-up of series `i` (counted from 0) in an array with a value for every match-up of the files. -/
def valueIn (ds : List (Dataset α)) (Y : List α) (i r : Nat) : α := Y.getD (((ds.map (·.M)).take i).sum + r) 0

/-- The ranges over which the plots are binned: `lo i c`, `hi i c` of covariate `c` (counted from 0) of the second sensor of series `i`; `Lo c`, `Hi c` of covariate `c` of all second sensors
that have one. -/
structure PlotRanges (ds : List (Dataset α)) (top : Nat) (lo hi : Nat → Nat → α) (Lo Hi : Nat → α) : Prop where
  r_own : ∀ (i : Nat) (d : Dataset α), ds[i]? = some d → ∀ c < d.s2.m, RangeOf d.M (fun r => d.s2.X r c) (lo i c) (hi i c)
  r_all : ∀ c < top, (∀ d ∈ ds, c < d.s2.m → ∀ r < d.M, Lo c ≤ d.s2.X r c ∧ d.s2.X r c ≤ Hi c) ∧ (∃ d ∈ ds, c < d.s2.m ∧ ∃ r < d.M, d.s2.X r c = Lo c) ∧
    ∃ d ∈ ds, c < d.s2.m ∧ ∃ r < d.M, d.s2.X r c = Hi c

/-- The name of covariate `c` (counted from 0): the one the sensor data give, if they give names, else `X1`, `X2`, ... -/
def NamedIn (given : Option (List String)) (c : Nat) (name : String) : Prop := (∃ l, given = some l ∧ l[c]? = some name) ∨ given = none ∧ name = "X" ++ toString (c + 1)

theorem NamedIn.eq {given : String → Option (List String)} {c : Nat} {sensor name : String} (h : NamedIn (given sensor) c name) : covariateName given (c + 1) sensor = .ok name := by
  unfold covariateName
  rcases h with ⟨l, h1, h2⟩ | ⟨h1, rfl⟩
  · rw [h1]
    exact pyGet_ok.2 h2
  · rw [h1]
    rfl

/-- The names and labels of the covariates of the second sensors, as the sensor data give them. -/
structure PlotNames (given : VariableNames) (ds : List (Dataset α)) (top : Nat) (xn xl : Nat → Nat → String) : Prop where
  n_names : ∀ (i : Nat) (d : Dataset α), ds[i]? = some d → ∀ c < top, NamedIn (given.names d.s2.name) c (xn i c)
  n_labels : ∀ (i : Nat) (d : Dataset α), ds[i]? = some d → ∀ c < top, NamedIn (given.labels d.s2.name) c (xl i c)

/-- The points of series `i` over covariate `c` of its second sensor, if it has one, binned between `lo` and `hi`. -/
def seriesPoints (sqrt : α → α) (ds : List (Dataset α)) (Y : List α) (c i : Nat) (lo hi : α) : Option (List (α × α × Option α)) :=
  ds[i]?.bind fun d => if c < d.s2.m then some (binnedPoints sqrt d.M (fun r => d.s2.X r c) (valueIn ds Y i) lo hi) else none

/-- The plot of one series (number `p.1` counted from 1, at position `p.2` in the list of series asked for). -/
def seriesPlot (sqrt : α → α) (ds : List (Dataset α)) (xn xl : Nat → Nat → String) (title fname : String) (Y : List α) (lo hi : Nat → Nat → α) (c : Nat) (p : Nat × Nat) : Option (Drawn α) :=
  ds[p.1 - 1]?.bind fun d => if c < d.s2.m then some
    { file := fname ++ "." ++ xn (p.1 - 1) c ++ "_" ++ d.s2.name ++ "_binned." ++ (d.s1.name ++ "_" ++ d.s2.name) ++ ".pdf"
      xlabel := "$" ++ xl (p.1 - 1) c ++ "$ (Binned)" ++ " - " ++ d.s2.name
      ylabel := title ++ " (" ++ (pairLabels " - " ds).getD p.2 "" ++ ")"
      lines := [("__nolegend__", withFirstError (binnedPoints sqrt d.M (fun r => d.s2.X r c) (valueIn ds Y (p.1 - 1)) (lo (p.1 - 1) c) (hi (p.1 - 1) c)))] } else none

/-- The plot of all series over one covariate. -/
def allSeriesPlot (sqrt : α → α) (ds : List (Dataset α)) (xn xl : Nat → Nat → String) (title fname : String) (Y : List α) (Lo Hi : Nat → α) (c : Nat) (series : List Nat) : Drawn α :=
  { file := fname ++ "." ++ xn (series.getLastD 0 - 1) c ++ "_sensor_2_binned.pdf"
    xlabel := "$" ++ xl (series.getLastD 0 - 1) c ++ "$ (Binned)" ++ " - Sensor 2"
    ylabel := title
    lines := (series.filterMap fun n => seriesPoints sqrt ds Y c (n - 1) (Lo c) (Hi c)).zipIdx.map fun q => ((pairLabels " - " ds).getD q.2 "", q.1) }

/-- All plots of `Y` over the covariates. -/
def plotsOverCovariates (sqrt : α → α) (ds : List (Dataset α)) (top : Nat) (xn xl : Nat → Nat → String) (title fname : String) (Y : List α) (lo hi : Nat → Nat → α) (Lo Hi : Nat → α)
    (series : List Nat) : List (Drawn α) :=
  (List.range top).flatMap fun c => series.zipIdx.filterMap (seriesPlot sqrt ds xn xl title fname Y lo hi c) ++ [allSeriesPlot sqrt ds xn xl title fname Y Lo Hi c series]

/-- The plots of `Y` over a variable with a value for every match-up: one for every series, and one of all series. `lo i`, `hi i` are the range of the variable in series `i`, `Lo`, `Hi` its whole range. -/
def plotsOverVariable (sqrt : α → α) (ds : List (Dataset α)) (xName title fname : String) (Y x : List α) (lo hi : Nat → α) (Lo Hi : α) : List (Drawn α) :=
  ds.zipIdx.map (fun p =>
    { file := fname ++ "." ++ xName ++ "_" ++ p.1.s2.name ++ "_binned." ++ (p.1.s1.name ++ "_" ++ p.1.s2.name) ++ ".pdf"
      xlabel := xName ++ " - " ++ p.1.s2.name
      ylabel := title ++ " (" ++ (p.1.s1.name ++ " - " ++ p.1.s2.name) ++ ")"
      lines := [("__nolegend__", withFirstError (binnedPoints sqrt p.1.M (valueIn ds x p.2) (valueIn ds Y p.2) (lo p.2) (hi p.2)))] }) ++
  [{ file := fname ++ "." ++ xName ++ "_sensor_2_binned.pdf"
     xlabel := xName ++ " - Sensor 2"
     ylabel := title
     lines := ds.zipIdx.map fun p => (p.1.s1.name ++ " - " ++ p.1.s2.name, binnedPoints sqrt p.1.M (valueIn ds x p.2) (valueIn ds Y p.2) Lo Hi) }]

/-! ### The match-up -/

/-- What the plots use of a match-up. -/
structure BinReady (ds : List (Dataset α)) (top : Nat) (mu : MatchUp α DateTime) : Prop where
  b_cNm : mu.idx.cNm = prefixSums (ds.map (·.M))
  b_second : ∀ (i : Nat) (d : Dataset α), ds[i]? = some d → secondSensor mu.idx i = .ok (d.s2.name, d.s2.m)
  b_series : pyMax mu.idx.n_mu = .ok ds.length
  b_top : pyMax mu.idx.sensor_ms = .ok top
  b_data : ∀ (i : Nat) (d : Dataset α), ds[i]? = some d → ∀ c < d.s2.m, mu.getVariableData (c + 1) d.s2.name (.num (i + 1)) = .ok ((List.range d.M).map fun r => d.s2.X r c)
  b_rows : ∀ d ∈ ds, 1 ≤ d.M

/-- `top` is the greatest number of covariates of a sensor. -/
def MostCovariates (ds : List (Dataset α)) (top : Nat) : Prop := (∀ d ∈ ds, d.s1.m ≤ top ∧ d.s2.m ≤ top) ∧ ∃ d ∈ ds, d.s1.m = top ∨ d.s2.m = top

theorem PlotFiles.binReady {env : ReadEnv α DateTime} {ds : List (Dataset α)} {sd : SensorData α (SensorModel α DateTime) (AdjModel α)} {mu : MatchUp α DateTime} {ms : Evaluable α DateTime}
    (hp : PlotFiles env ds sd mu ms) {top : Nat} (ht : MostCovariates ds top) : BinReady ds top ms.mu := by
  obtain ⟨p1, hc, p3, p4, p5, p6, p7, p8, hmu, hset⟩ := hp
  have hne := openMatchUp_nonempty hmu
  obtain ⟨x, mx, hx, hf⟩ := getIdx_facts hne
  obtain ⟨x', hx', _, _, _, _, _, _, _, _, _, _, _, hidx, _⟩ := openMatchUp_inv hmu
  rw [hx] at hx'; cases hx'
  obtain ⟨e, he, rfl⟩ := setSensorData_inv hset
  have hmem : ∀ b ∈ x.n_mu, 1 ≤ b ∧ b ≤ ds.length := by
    intro b hb
    rw [hf.n_mu] at hb
    obtain ⟨q, hq, rfl⟩ := List.mem_map.1 hb
    obtain ⟨n, i, c⟩ := q
    rw [← hf.blocks] at hq
    obtain ⟨h1, _, d, s, hd, _⟩ := (hf.mem_blocks hc).1 hq
    have := (List.getElem?_eq_some_iff.1 hd).1
    simp only
    omega
  refine ⟨?_, ?_, ?_, ?_, ?_, p4⟩
  · show mu.idx.cNm = _
    rw [hidx]; exact hf.cNm
  · intro i d hd
    have hs : d.s2 ∈ ds.flatMap Dataset.sides := mem_sides.2 ⟨d, List.mem_of_getElem? hd, .inr rfl⟩
    have hIm : mu.idx.Im[i]? = some (x.sensors.idxOf d.s1.name, x.sensors.idxOf d.s2.name) := by
      rw [hidx]
      show x.Im[i]? = _
      rw [hf.Im, List.getElem?_map, hd]
      rfl
    refine bind_ok.2 ⟨_, pyGet_ok.2 hIm, bind_ok.2 ⟨d.s2.name, pyGet_ok.2 ?_, bind_ok.2 ⟨d.s2.m, pyGet_ok.2 ?_, rfl⟩⟩⟩
    · show mu.idx.sensors[x.sensors.idxOf d.s2.name]? = _
      rw [hidx]; exact hf.sens_lookup hs
    · show mu.idx.sensor_ms[x.sensors.idxOf d.s2.name]? = _
      rw [hidx]; exact hf.ms_lookup hc hs
  · show pyMax mu.idx.n_mu = _
    rw [hidx]
    have hl : 0 < ds.length := List.length_pos_iff.2 hne
    refine pyMax_of (fun b hb => (hmem b hb).2) ?_
    have hd : ds[ds.length - 1]? = some ds[ds.length - 1] := List.getElem?_eq_getElem (by omega)
    have hb : (x.sensors.idxOf (ds[ds.length - 1]).s2.name, ds.length, 1) ∈ x.blocks :=
      (hf.mem_blocks hc).2 ⟨hl, le_rfl, ds[ds.length - 1], _, hd, .inr rfl, rfl, (p3 _ (List.getElem_mem _)).2⟩
    rw [hf.blocks] at hb
    show ds.length ∈ x.n_mu
    rw [hf.n_mu]
    exact List.mem_map.2 ⟨_, hb, rfl⟩
  · show pyMax mu.idx.sensor_ms = _
    rw [hidx]
    obtain ⟨t1, d, hd, t2⟩ := ht
    have hle : ∀ m ∈ x.sensor_ms, m ≤ top := by
      intro m hm
      obtain ⟨i, hi⟩ := List.mem_iff_getElem?.1 hm
      have hil : i < x.sensors.length := by rw [hf.ms_len]; exact (List.getElem?_eq_some_iff.1 hi).1
      obtain ⟨s, hs, _, hs'⟩ := hf.ms_first i _ (List.getElem?_eq_getElem hil)
      rw [hi] at hs'
      cases hs'
      obtain ⟨d', hd', h⟩ := mem_sides.1 hs
      rcases h with rfl | rfl
      · exact (t1 d' hd').1
      · exact (t1 d' hd').2
    refine pyMax_of hle ?_
    rcases t2 with t2 | t2
    · rw [← t2]; exact List.mem_of_getElem? (hf.ms_lookup hc (mem_sides.2 ⟨d, hd, .inl rfl⟩))
    · rw [← t2]; exact List.mem_of_getElem? (hf.ms_lookup hc (mem_sides.2 ⟨d, hd, .inr rfl⟩))
  · intro i d hd c hcm
    have := C03_getVariableData env ds hc mu hmu d.s2.name (i + 1) (c + 1) ((List.range d.M).map fun r => d.s2.X r c)
      ⟨d, d.s2, by omega, hd, .inr rfl, rfl, by omega, by omega, rfl⟩
    exact this

/-! ### Ranges -/

theorem option_fold_max (l : List α) (a : α) : (l.map some).foldl max (some a) = some (l.foldl max a) := by
  induction l generalizing a with
  | nil => rfl
  | cons b l ih =>
    simp only [List.map_cons, List.foldl_cons]
    rw [← ih]
    rfl

theorem option_fold_min (l : List α) (a : α) : (l.map some).foldl min (some a) = some (l.foldl min a) := by
  induction l generalizing a with
  | nil => rfl
  | cons b l ih =>
    simp only [List.map_cons, List.foldl_cons]
    rw [← ih]
    rfl

theorem pyMaxOf_some {l : List α} {m : α} (h : pyMaxOf l = .ok m) : pyMaxOf (l.map some) = .ok (some m) := by
  cases l with
  | nil => cases h
  | cons a l =>
    have := Except.ok.inj h
    subst this
    show Except.ok _ = _
    rw [option_fold_max]

theorem pyMinOf_some {l : List α} {m : α} (h : pyMinOf l = .ok m) : pyMinOf (l.map some) = .ok (some m) := by
  cases l with
  | nil => cases h
  | cons a l =>
    have := Except.ok.inj h
    subst this
    show Except.ok _ = _
    rw [option_fold_min]

theorem filterMap_id_map {β γ : Type} (L : List β) (f : β → Option γ) : (L.map f).filterMap id = L.filterMap f := by
  rw [List.filterMap_map]; rfl

theorem BinReady.ranges {ds : List (Dataset α)} {top : Nat} {mu : MatchUp α DateTime} (hb : BinReady ds top mu) {lo hi : Nat → Nat → α} {Lo Hi : Nat → α} (hr : PlotRanges ds top lo hi Lo Hi) :
    covariateRanges mu = .ok ((List.range top).map fun c => (some (Lo c), some (Hi c))) := by
  unfold covariateRanges
  refine bind_ok.2 ⟨top, hb.b_top, bind_ok.2 ⟨ds.length, hb.b_series, ?_⟩⟩
  apply mapM_ok_of
  intro c hc
  have hc := List.mem_range.1 hc
  obtain ⟨f, hf⟩ : ∃ f : Nat → Option (α × α), f = fun i => ds[i]?.bind fun d => if c < d.s2.m then some (lo i c, hi i c) else none := ⟨_, rfl⟩
  have hmax : ∀ (i : Nat) (d : Dataset α), ds[i]? = some d → c < d.s2.m → mu.getVariableDataMax (c + 1) d.s2.name (.num (i + 1)) = .ok (some (hi i c)) ∧
      mu.getVariableDataMin (c + 1) d.s2.name (.num (i + 1)) = .ok (some (lo i c)) := by
    intro i d hd hcm
    obtain ⟨g1, g2, g3⟩ := (hr.r_own i d hd c hcm).list
    obtain ⟨e1, e2, -, -⟩ := extremes_ok g1 g2 g3
    unfold MatchUp.getVariableDataMax MatchUp.getVariableDataMin
    rw [hb.b_data i d hd c hcm]
    simp only [bind, Except.bind]
    rw [e1, e2]
    exact ⟨rfl, rfl⟩
  have hl : ((List.range ds.length).mapM fun i => do
      let s ← secondSensor mu.idx i
      if c + 1 ≤ s.2 then do
        let hi ← mu.getVariableDataMax (c + 1) s.1 (.num (i + 1))
        let lo ← mu.getVariableDataMin (c + 1) s.1 (.num (i + 1))
        pure (some (lo, hi))
      else pure none) = Except.ok ((List.range ds.length).map fun i => (f i).map fun q => (some q.1, some q.2)) := by
    apply mapM_ok_of
    intro i hi'
    obtain ⟨d, hd⟩ : ∃ d, ds[i]? = some d := ⟨_, List.getElem?_eq_getElem (List.mem_range.1 hi')⟩
    refine bind_ok.2 ⟨_, hb.b_second i _ hd, ?_⟩
    by_cases hcm : c < d.s2.m
    · simp only [Nat.succ_le_of_lt hcm, if_true, hf, hd, Option.bind_some, hcm, Option.map_some]
      obtain ⟨h1, h2⟩ := hmax i _ hd hcm
      exact bind_ok.2 ⟨_, h1, bind_ok.2 ⟨_, h2, rfl⟩⟩
    · simp only [show ¬ c + 1 ≤ d.s2.m from by omega, if_false, hf, hd, Option.bind_some, hcm, Option.map_none]
      rfl
  have hmem : ∀ q, q ∈ (List.range ds.length).filterMap f ↔ ∃ (i : Nat) (d : Dataset α), ds[i]? = some d ∧ c < d.s2.m ∧ q = (lo i c, hi i c) := by
    intro q
    rw [List.mem_filterMap]
    constructor
    · rintro ⟨i, hi', h⟩
      obtain ⟨d, hd⟩ : ∃ d, ds[i]? = some d := ⟨_, List.getElem?_eq_getElem (List.mem_range.1 hi')⟩
      rw [hf] at h
      simp only [hd, Option.bind_some] at h
      by_cases hcm : c < d.s2.m
      · rw [if_pos hcm] at h
        exact ⟨i, _, hd, hcm, (Option.some.inj h).symm⟩
      · rw [if_neg hcm] at h; cases h
    · rintro ⟨i, d, hd, hcm, rfl⟩
      refine ⟨i, List.mem_range.2 (List.getElem?_eq_some_iff.1 hd).1, ?_⟩
      rw [hf]
      simp only [hd, Option.bind_some, if_pos hcm]
  obtain ⟨r1, r2, r3⟩ := hr.r_all c hc
  have bounds : ∀ (i : Nat) (d : Dataset α), ds[i]? = some d → c < d.s2.m → Lo c ≤ lo i c ∧ lo i c ≤ hi i c ∧ hi i c ≤ Hi c := by
    intro i d hd hcm
    obtain ⟨o1, ⟨r, hr1, o2⟩, ⟨s, hs1, o3⟩⟩ := hr.r_own i d hd c hcm
    have a1 := r1 d (List.mem_of_getElem? hd) hcm r hr1
    have a2 := r1 d (List.mem_of_getElem? hd) hcm s hs1
    have a3 := o1 s hs1
    simp only at o2 o3 a3
    rw [o2] at a1; rw [o3] at a2 a3
    exact ⟨a1.1, a3.1, a2.2⟩
  have emax : pyMaxOf (((List.range ds.length).filterMap f).map (·.2)) = .ok (Hi c) := by
    refine (extremes_ok (lo := ((((List.range ds.length).filterMap f).map (·.2)).foldl min (Hi c))) ?_ ?_ ?_).2.1
    · intro v hv
      obtain ⟨m1, m2, -⟩ := foldl_min_facts (((List.range ds.length).filterMap f).map (·.2)) (Hi c)
      refine ⟨m2 v hv, ?_⟩
      obtain ⟨q, hq, rfl⟩ := List.mem_map.1 hv
      obtain ⟨i, d, hd, hcm, rfl⟩ := (hmem q).1 hq
      exact (bounds i d hd hcm).2.2
    · obtain ⟨m1, m2, m3⟩ := foldl_min_facts (((List.range ds.length).filterMap f).map (·.2)) (Hi c)
      obtain ⟨d, hd, hcm, r, hr', er⟩ := r3
      obtain ⟨i, hi'⟩ := List.getElem?_of_mem hd
      have hq : hi i c ∈ ((List.range ds.length).filterMap f).map (·.2) := List.mem_map.2 ⟨_, (hmem _).2 ⟨i, d, hi', hcm, rfl⟩, rfl⟩
      rcases m3 with m3 | m3
      · have h1 := m2 _ hq
        rw [m3] at h1
        rw [m3, le_antisymm h1 (bounds i d hi' hcm).2.2]
        exact hq
      · exact m3
    · obtain ⟨d, hd, hcm, r, hr', er⟩ := r3
      obtain ⟨i, hi'⟩ := List.getElem?_of_mem hd
      refine List.mem_map.2 ⟨_, (hmem _).2 ⟨i, d, hi', hcm, rfl⟩, ?_⟩
      apply le_antisymm (bounds i d hi' hcm).2.2
      rw [← er]
      exact ((hr.r_own i d hi' c hcm).1 r hr').2
  have emin : pyMinOf (((List.range ds.length).filterMap f).map (·.1)) = .ok (Lo c) := by
    refine (extremes_ok (hi := ((((List.range ds.length).filterMap f).map (·.1)).foldl max (Lo c))) ?_ ?_ ?_).1
    · intro v hv
      obtain ⟨m1, m2, -⟩ := foldl_max_facts (((List.range ds.length).filterMap f).map (·.1)) (Lo c)
      refine ⟨?_, m2 v hv⟩
      obtain ⟨q, hq, rfl⟩ := List.mem_map.1 hv
      obtain ⟨i, d, hd, hcm, rfl⟩ := (hmem q).1 hq
      exact (bounds i d hd hcm).1
    · obtain ⟨d, hd, hcm, r, hr', er⟩ := r2
      obtain ⟨i, hi'⟩ := List.getElem?_of_mem hd
      refine List.mem_map.2 ⟨_, (hmem _).2 ⟨i, d, hi', hcm, rfl⟩, ?_⟩
      apply le_antisymm _ (bounds i d hi' hcm).1
      rw [← er]
      exact ((hr.r_own i d hi' c hcm).1 r hr').1
    · obtain ⟨m1, m2, m3⟩ := foldl_max_facts (((List.range ds.length).filterMap f).map (·.1)) (Lo c)
      obtain ⟨d, hd, hcm, r, hr', er⟩ := r2
      obtain ⟨i, hi'⟩ := List.getElem?_of_mem hd
      have hq : lo i c ∈ ((List.range ds.length).filterMap f).map (·.1) := List.mem_map.2 ⟨_, (hmem _).2 ⟨i, d, hi', hcm, rfl⟩, rfl⟩
      rcases m3 with m3 | m3
      · have h1 := m2 _ hq
        rw [m3] at h1
        rw [m3, ← le_antisymm h1 (bounds i d hi' hcm).1]
        exact hq
      · exact m3
  have hsel : ∀ {γ : Type} (g : Option α × Option α → γ), (((List.range ds.length).map fun i => (f i).map fun q => (some q.1, some q.2)).filterMap id).map g =
      ((List.range ds.length).filterMap f).map fun q => g (some q.1, some q.2) := by
    intro γ g
    rw [filterMap_id_map, List.map_filterMap, List.map_filterMap]
    congr 1
    funext i
    rw [Option.map_map]
    rfl
  refine bind_ok.2 ⟨_, hl, bind_ok.2 ⟨some (Hi c), ?_, bind_ok.2 ⟨some (Lo c), ?_, rfl⟩⟩⟩
  · rw [hsel]
    have := pyMaxOf_some emax
    rw [List.map_map] at this
    exact this
  · rw [hsel]
    have := pyMinOf_some emin
    rw [List.map_map] at this
    exact this

/-! ### One turn -/

theorem slice_values {ds : List (Dataset α)} {Y : List α} (hY : Y.length = (ds.map (·.M)).sum) {i : Nat} {d : Dataset α} (hd : ds[i]? = some d) :
    slice Y ((ds.map (·.M)).take i).sum ((ds.map (·.M)).take (i + 1)).sum = (List.range d.M).map (valueIn ds Y i) := by
  have hM : (ds.map (·.M))[i]? = some d.M := by rw [List.getElem?_map, hd]; rfl
  have hle := take_sum_le hM
  rw [take_sum_next hM]
  apply List.ext_getElem
  · rw [slice_len _ (by omega)]; simp
  · intro r h1 h2
    simp only [List.length_map, List.length_range] at h2
    have : ((ds.map (·.M)).take i).sum + r < Y.length := by omega
    simp only [slice, List.getElem_take, List.getElem_drop, List.getElem_map, List.getElem_range, valueIn]
    simp [List.getD, List.getElem?_eq_getElem this]


theorem pairLabels_get {b : String} {ds : List (Dataset α)} {i : Nat} {d : Dataset α} (hd : ds[i]? = some d) : pyGet (pairLabels b ds) i = .ok (d.s1.name ++ b ++ d.s2.name) := by
  apply pyGet_ok.2
  unfold pairLabels
  rw [List.getElem?_map, hd]
  rfl

section
variable {ds : List (Dataset α)} {top : Nat} {mu : MatchUp α DateTime} {lo hi : Nat → Nat → α} {Lo Hi : Nat → α} {given : VariableNames} {xn xl : Nat → Nat → String}

/-- The arrays that a series leaves for the plot of all series. -/
noncomputable def seriesBins (sqrt : α → α) (d : Dataset α) (y : Nat → α) (c : Nat) (Lo Hi : α) : SeriesBins α :=
  match binSeries sqrt ((List.range d.M).map y) ((List.range d.M).map fun r => some (d.s2.X r c)) (some Lo) (some Hi) with
  | .ok r => r.2
  | .error _ => ⟨[], [], []⟩

theorem seriesBins_ok (sqrt : α → α) {d : Dataset α} {y : Nat → α} {c : Nat} {lo hi : α} (h : RangeOf d.M (fun r => d.s2.X r c) lo hi) (hv : lo < hi) (Lo Hi : α) :
    binSeries sqrt ((List.range d.M).map y) ((List.range d.M).map fun r => some (d.s2.X r c)) (some Lo) (some Hi) =
      .ok (withFirstError (binnedPoints sqrt d.M (fun r => d.s2.X r c) y lo hi), seriesBins sqrt d y c Lo Hi) ∧
    numericPoints (seriesBins sqrt d y c Lo Hi).averages (seriesBins sqrt d y c Lo Hi).centres (seriesBins sqrt d y c Lo Hi).stds =
      binnedPoints sqrt d.M (fun r => d.s2.X r c) y Lo Hi := by
  obtain ⟨s, h1, h2⟩ := binSeries_ok sqrt (y := y) h hv Lo Hi
  have : seriesBins sqrt d y c Lo Hi = s := by
    unfold seriesBins
    rw [h1]
  rw [this]
  exact ⟨h1, h2⟩

/-- One turn, for a series of the files and a covariate that varies in it. -/
theorem covariateTurn_ok (sqrt : α → α) (hb : BinReady ds top mu) (hr : PlotRanges ds top lo hi Lo Hi) (hn : PlotNames given ds top xn xl) {Y : List α} (hY : Y.length = (ds.map (·.M)).sum)
    (title fname : String) {n pos c : Nat} {d : Dataset α} (hn1 : 1 ≤ n) (hd : ds[n - 1]? = some d) (hc : c < top) (hpos : pos < ds.length) (hv : c < d.s2.m → lo (n - 1) c < hi (n - 1) c) :
    covariateTurn sqrt mu given (pairLabels " - " ds) (pairLabels "_" ds) title fname Y (c + 1) (some (Lo c), some (Hi c)) (n, pos) = .ok
      { name := xn (n - 1) c
        label := "$" ++ xl (n - 1) c ++ "$ (Binned)"
        drawn := (seriesPlot sqrt ds xn xl title fname Y lo hi c (n, pos)).map fun p => (p, seriesBins sqrt d (valueIn ds Y (n - 1)) c (Lo c) (Hi c)) } := by
  have hl : (ds.map (·.M)).length = ds.length := by simp
  have hlt := (List.getElem?_eq_some_iff.1 hd).1
  have g1 : pyGet mu.idx.cNm (n - 1) = .ok ((ds.map (·.M)).take (n - 1)).sum := by rw [hb.b_cNm]; exact pyGet_prefixSums _ (by omega)
  have g2 : pyGet mu.idx.cNm n = .ok ((ds.map (·.M)).take n).sum := by rw [hb.b_cNm]; exact pyGet_prefixSums _ (by omega)
  have g3 : slice Y ((ds.map (·.M)).take (n - 1)).sum ((ds.map (·.M)).take n).sum = (List.range d.M).map (valueIn ds Y (n - 1)) := by
    have := slice_values hY hd
    rwa [Nat.sub_add_cancel hn1] at this
  have g4 : pyGet (pairLabels " - " ds) pos = .ok ((pairLabels " - " ds).getD pos "") := by
    apply pyGet_ok.2
    have : pos < (pairLabels " - " ds).length := by simpa [pairLabels] using hpos
    simp [List.getD, List.getElem?_eq_getElem this]
  unfold covariateTurn
  refine bind_ok.2 ⟨_, g1, bind_ok.2 ⟨_, g2, bind_ok.2 ⟨_, hb.b_second _ d hd, bind_ok.2 ⟨_, (hn.n_names _ d hd c hc).eq, bind_ok.2 ⟨_, (hn.n_labels _ d hd c hc).eq,
    bind_ok.2 ⟨_, pairLabels_get hd, ?_⟩⟩⟩⟩⟩⟩
  unfold seriesPlot
  simp only [hd, Option.bind_some]
  by_cases hcm : c < d.s2.m
  · simp only [Nat.succ_le_of_lt hcm, hcm, if_true]
    obtain ⟨s1, -⟩ := seriesBins_ok sqrt (y := valueIn ds Y (n - 1)) (hr.r_own _ d hd c hcm) (hv hcm) (Lo c) (Hi c)
    have hdata : mu.getVariableData (c + 1) d.s2.name (.num n) = .ok ((List.range d.M).map fun r => d.s2.X r c) := by
      have := hb.b_data (n - 1) d hd c hcm
      rwa [Nat.sub_add_cancel hn1] at this
    refine bind_ok.2 ⟨_, hdata, bind_ok.2 ⟨_, g4, ?_⟩⟩
    refine bind_ok.2 ⟨_, by rw [g3, List.map_map]; exact s1, ?_⟩
    rfl
  · simp only [show ¬ c + 1 ≤ d.s2.m from by omega, hcm, if_false]
    rfl

/-- All plots over the covariates. -/
theorem binnedX_ok (sqrt : α → α) (hb : BinReady ds top mu) (hr : PlotRanges ds top lo hi Lo Hi) (hn : PlotNames given ds top xn xl) {Y : List α} (hY : Y.length = (ds.map (·.M)).sum)
    (title fname : String) {mus : Option (List Nat)} {series : List Nat} (hs : chosenSeries mu.idx mus = .ok series) (hmem : ∀ n ∈ series, 1 ≤ n ∧ n ≤ ds.length)
    (hlen : series.length ≤ ds.length) (hv : ∀ n ∈ series, ∀ d, ds[n - 1]? = some d → ∀ c < d.s2.m, lo (n - 1) c < hi (n - 1) c)
    (hsome : ∀ c < top, ∃ n ∈ series, ∃ d, ds[n - 1]? = some d ∧ c < d.s2.m) :
    binnedX sqrt mu given (pairLabels " - " ds) (pairLabels "_" ds) title fname Y mus = .ok (plotsOverCovariates sqrt ds top xn xl title fname Y lo hi Lo Hi series) := by
  have hget : ∀ n ∈ series, ∃ d, ds[n - 1]? = some d := fun n hn' => ⟨_, List.getElem?_eq_getElem (by have := hmem n hn'; omega)⟩
  have hz : ∀ p ∈ series.zipIdx, p.1 ∈ series ∧ p.2 < ds.length := by
    intro p hp
    obtain ⟨q1, q2⟩ := List.mem_zipIdx_iff_getElem?.1 hp |> fun h => (⟨List.mem_of_getElem? h, (List.getElem?_eq_some_iff.1 h).1⟩ : p.1 ∈ series ∧ p.2 < series.length)
    exact ⟨q1, by omega⟩
  unfold binnedX
  refine bind_ok.2 ⟨series, hs, bind_ok.2 ⟨top, hb.b_top, bind_ok.2 ⟨(List.range top).map fun c =>
    series.zipIdx.filterMap (seriesPlot sqrt ds xn xl title fname Y lo hi c) ++ [allSeriesPlot sqrt ds xn xl title fname Y Lo Hi c series], ?_, ?_⟩⟩⟩
  swap
  · show Except.ok _ = Except.ok _
    rw [← List.flatMap_def]
    rfl
  apply mapM_ok_of
  intro c hc
  have hc := List.mem_range.1 hc
  obtain ⟨B, hB⟩ : ∃ B : Nat → SeriesBins α, B = fun n => match ds[n - 1]? with
    | some d => seriesBins sqrt d (valueIn ds Y (n - 1)) c (Lo c) (Hi c)
    | none => ⟨[], [], []⟩ := ⟨_, rfl⟩
  have hturns : series.zipIdx.mapM (covariateTurn sqrt mu given (pairLabels " - " ds) (pairLabels "_" ds) title fname Y (c + 1) (some (Lo c), some (Hi c))) =
      .ok (series.zipIdx.map fun p => { name := xn (p.1 - 1) c
                                        label := "$" ++ xl (p.1 - 1) c ++ "$ (Binned)"
                                        drawn := (seriesPlot sqrt ds xn xl title fname Y lo hi c p).map fun q => (q, B p.1) }) := by
    apply mapM_ok_of
    intro p hp
    obtain ⟨h1, h2⟩ := hz p hp
    obtain ⟨d, hd⟩ := hget p.1 h1
    rw [covariateTurn_ok sqrt hb hr hn hY title fname (hmem _ h1).1 hd hc h2 (hv p.1 h1 d hd c), hB]
    simp only [hd]
  have hne : series ≠ [] := by
    obtain ⟨n, hn', -⟩ := hsome c hc
    exact List.ne_nil_of_mem hn'
  have hz0 : series.zipIdx ≠ [] := by
    intro h
    have := congrArg List.length h
    simp only [List.length_zipIdx, List.length_nil, List.length_eq_zero_iff] at this
    exact hne this
  refine bind_ok.2 ⟨_, hb.ranges hr, bind_ok.2 ⟨(some (Lo c), some (Hi c)), pyGet_ok.2 (by simp [hc]), bind_ok.2 ⟨_, hturns, ?_⟩⟩⟩
  rw [List.getLast?_map, List.getLast?_eq_some_getLast hz0]
  simp only [Option.map_some]
  have hlast : (series.zipIdx.getLast hz0).1 = series.getLastD 0 := by
    have e : (series.zipIdx.getLast hz0).1 = (series.zipIdx.map Prod.fst).getLast (by simpa using hne) := by
      rw [List.getLast_map]
    rw [e]
    simp only [List.zipIdx_map_fst]
    rw [List.getLastD_eq_getLast?, List.getLast?_eq_some_getLast hne]
    rfl
  rw [hlast]
  have hdrawn : (series.zipIdx.map fun p => ({ name := xn (p.1 - 1) c
                                               label := "$" ++ xl (p.1 - 1) c ++ "$ (Binned)"
                                               drawn := (seriesPlot sqrt ds xn xl title fname Y lo hi c p).map fun q => (q, B p.1) } : SeriesTurn α)).filterMap (·.drawn) =
      series.zipIdx.filterMap fun p => (seriesPlot sqrt ds xn xl title fname Y lo hi c p).map fun q => (q, B p.1) := by
    rw [List.filterMap_map]
    rfl
  rw [hdrawn]
  obtain ⟨D, hD⟩ : ∃ D, D = series.zipIdx.filterMap fun p => (seriesPlot sqrt ds xn xl title fname Y lo hi c p).map fun q => (q, B p.1) := ⟨_, rfl⟩
  rw [← hD]
  have hfst : D.map (·.1) = series.zipIdx.filterMap (seriesPlot sqrt ds xn xl title fname Y lo hi c) := by
    rw [hD, List.map_filterMap]
    congr 1
    funext p
    rw [Option.map_map]
    show Option.map (fun q => q) _ = _
    simp
  have hpts : (D.map fun q => numericPoints q.2.averages q.2.centres q.2.stds) = series.filterMap fun n => seriesPoints sqrt ds Y c (n - 1) (Lo c) (Hi c) := by
    have e : (series.filterMap fun n => seriesPoints sqrt ds Y c (n - 1) (Lo c) (Hi c)) = series.zipIdx.filterMap fun p => seriesPoints sqrt ds Y c (p.1 - 1) (Lo c) (Hi c) := by
      conv_lhs => rw [← List.zipIdx_map_fst 0 series, List.filterMap_map]
      rfl
    rw [hD, List.map_filterMap, e]
    apply List.filterMap_congr
    intro p hp
    obtain ⟨h1, h2⟩ := hz p hp
    obtain ⟨d, hd⟩ := hget p.1 h1
    unfold seriesPlot seriesPoints
    simp only [hd, Option.bind_some]
    by_cases hcm : c < d.s2.m
    · simp only [hcm, if_true, Option.map_some, Option.some.injEq, hB, hd]
      exact (seriesBins_ok sqrt (hr.r_own _ d hd c hcm) (hv p.1 h1 d hd c hcm) (Lo c) (Hi c)).2
    · simp only [hcm, if_false, Option.map_none]
  have hDne : D ≠ [] := by
    obtain ⟨n, hn', d, hd, hcm⟩ := hsome c hc
    intro h
    rw [h] at hpts
    have : binnedPoints sqrt d.M (fun r => d.s2.X r c) (valueIn ds Y (n - 1)) (Lo c) (Hi c) ∈ series.filterMap fun n => seriesPoints sqrt ds Y c (n - 1) (Lo c) (Hi c) := by
      rw [List.mem_filterMap]
      refine ⟨n, hn', ?_⟩
      unfold seriesPoints
      simp only [hd, Option.bind_some, if_pos hcm]
    rw [← hpts] at this
    cases this
  have hDlen : D.length ≤ ds.length := by
    rw [hD]
    refine le_trans (List.length_filterMap_le _ _) ?_
    rw [List.length_zipIdx]
    exact hlen
  have hlines : plotErrLists (D.map fun q => q.2.averages) (D.map fun q => q.2.centres) (D.map fun q => q.2.stds) (pairLabels " - " ds) =
      .ok ((series.filterMap fun n => seriesPoints sqrt ds Y c (n - 1) (Lo c) (Hi c)).zipIdx.map fun q => ((pairLabels " - " ds).getD q.2 "", q.1)) := by
    rw [← hpts]
    clear hpts hfst hdrawn hturns
    unfold plotErrLists
    obtain ⟨q0, D', hD'⟩ := List.exists_cons_of_ne_nil hDne
    have hx : ∃ a l, (D.map fun q => q.2.centres) = a :: l := ⟨q0.2.centres, D'.map fun q => q.2.centres, by rw [hD']; rfl⟩
    obtain ⟨a, l, hal⟩ := hx
    rw [hal]
    simp only
    rw [← hal]
    refine bind_ok.2 ⟨q0.2.averages, by rw [hD']; rfl, ?_⟩
    rw [zip_map_map, zip_map_map, List.zipIdx_map, List.zipIdx_map, List.mapM_map, List.map_map]
    apply mapM_ok_of
    intro q hq
    have hql : q.2 < D.length := by
      have := List.mem_zipIdx_iff_getElem?.1 hq
      exact (List.getElem?_eq_some_iff.1 this).1
    have hqp : q.2 < (pairLabels " - " ds).length := by
      have : (pairLabels " - " ds).length = ds.length := by simp [pairLabels]
      omega
    refine bind_ok.2 ⟨(pairLabels " - " ds).getD q.2 "", pyGet_ok.2 (by simp [List.getD, List.getElem?_eq_getElem hqp]), ?_⟩
    rfl
  refine bind_ok.2 ⟨_, hlines, ?_⟩
  rw [hfst]
  rfl


/-! ### Additional variables -/

theorem slice_map {β γ : Type} (f : β → γ) (l : List β) (a b : Nat) : slice (l.map f) a b = (slice l a b).map f := by
  unfold slice
  rw [← List.map_drop, ← List.map_take]

theorem allSeries (h : BinReady ds top mu) : chosenSeries mu.idx none = .ok ((List.range ds.length).map (· + 1)) := by
  unfold chosenSeries
  exact bind_ok.2 ⟨_, h.b_series, rfl⟩

/-- All plots over an additional variable that varies within every series. -/
theorem binnedAdditional_ok (sqrt : α → α) (hb : BinReady ds top mu) (hne : ds ≠ []) {Y x : List α} (hY : Y.length = (ds.map (·.M)).sum) (hx : x.length = (ds.map (·.M)).sum)
    (xName title fname : String) {lo hi : Nat → α} {Lo Hi : α} (hown : ∀ (i : Nat) (d : Dataset α), ds[i]? = some d → RangeOf d.M (valueIn ds x i) (lo i) (hi i) ∧ lo i < hi i)
    (hall : (∀ v ∈ x, Lo ≤ v ∧ v ≤ Hi) ∧ Lo ∈ x ∧ Hi ∈ x) :
    binnedAdditional sqrt mu.idx (pairLabels " - " ds) (pairLabels "_" ds) xName xName title fname Y (x.map some) none = .ok (plotsOverVariable sqrt ds xName title fname Y x lo hi Lo Hi) := by
  obtain ⟨-, -, e3, e4⟩ := extremes_ok hall.1 hall.2.1 hall.2.2
  unfold binnedAdditional
  have hl : (ds.map (·.M)).length = ds.length := by simp
  have hser : ∀ (i : Nat) (d : Dataset α), ds[i]? = some d → ∃ s, binSeries sqrt (slice Y ((ds.map (·.M)).take i).sum ((ds.map (·.M)).take (i + 1)).sum)
      (slice (x.map some) ((ds.map (·.M)).take i).sum ((ds.map (·.M)).take (i + 1)).sum) (some Lo) (some Hi) =
        .ok (withFirstError (binnedPoints sqrt d.M (valueIn ds x i) (valueIn ds Y i) (lo i) (hi i)), s) ∧
      numericPoints s.averages s.centres s.stds = binnedPoints sqrt d.M (valueIn ds x i) (valueIn ds Y i) Lo Hi := by
    intro i d hd
    obtain ⟨h1, h2⟩ := hown i d hd
    have := binSeries_ok sqrt (y := valueIn ds Y i) h1 h2 Lo Hi
    rw [slice_values hY hd, slice_map, slice_values hx hd, List.map_map]
    exact this
  have hturn : ∀ i ∈ List.range ds.length, ∃ s, additionalTurn sqrt mu.idx (pairLabels " - " ds) (pairLabels "_" ds) xName xName title fname Y (x.map some) (some Lo) (some Hi) (i + 1, i) = .ok s ∧
      ∀ d, ds[i]? = some d → s.1 = { file := fname ++ "." ++ xName ++ "_" ++ d.s2.name ++ "_binned." ++ (d.s1.name ++ "_" ++ d.s2.name) ++ ".pdf"
                                     xlabel := xName ++ " - " ++ d.s2.name
                                     ylabel := title ++ " (" ++ (d.s1.name ++ " - " ++ d.s2.name) ++ ")"
                                     lines := [("__nolegend__", withFirstError (binnedPoints sqrt d.M (valueIn ds x i) (valueIn ds Y i) (lo i) (hi i)))] } ∧
        numericPoints s.2.averages s.2.centres s.2.stds = binnedPoints sqrt d.M (valueIn ds x i) (valueIn ds Y i) Lo Hi := by
    intro i hi'
    have hil := List.mem_range.1 hi'
    obtain ⟨d, hd⟩ : ∃ d, ds[i]? = some d := ⟨_, List.getElem?_eq_getElem hil⟩
    obtain ⟨s, h1, h2⟩ := hser i d hd
    refine ⟨_, bind_ok.2 ⟨((ds.map (·.M)).take i).sum, by rw [hb.b_cNm]; exact pyGet_prefixSums _ (by omega), bind_ok.2 ⟨((ds.map (·.M)).take (i + 1)).sum, by rw [hb.b_cNm]; exact pyGet_prefixSums _ (by omega),
      bind_ok.2 ⟨_, hb.b_second i d hd, bind_ok.2 ⟨_, pairLabels_get hd, bind_ok.2 ⟨_, pairLabels_get hd, bind_ok.2 ⟨_, h1, rfl⟩⟩⟩⟩⟩⟩, ?_⟩
    intro d' hd'
    rw [hd] at hd'
    cases hd'
    exact ⟨rfl, h2⟩
  have hz : (((List.range ds.length).map (· + 1)).zipIdx) = (List.range ds.length).map fun i => (i + 1, i) := range_zipIdx _ _
  obtain ⟨turns, ht⟩ := mapM_all_ok (f := additionalTurn sqrt mu.idx (pairLabels " - " ds) (pairLabels "_" ds) xName xName title fname Y (x.map some) (some Lo) (some Hi))
    (l := (List.range ds.length).map fun i => (i + 1, i)) (by
      intro p hp
      obtain ⟨i, hi', rfl⟩ := List.mem_map.1 hp
      obtain ⟨s, h, -⟩ := hturn i hi'
      exact ⟨s, h⟩)
  obtain ⟨tl, tg⟩ := mapM_ok_get ht
  rw [List.length_map, List.length_range] at tl
  have hfacts : ∀ (i : Nat) (h : i < turns.length) (h' : i < ds.length), turns[i].1 =
      { file := fname ++ "." ++ xName ++ "_" ++ ds[i].s2.name ++ "_binned." ++ (ds[i].s1.name ++ "_" ++ ds[i].s2.name) ++ ".pdf"
        xlabel := xName ++ " - " ++ ds[i].s2.name
        ylabel := title ++ " (" ++ (ds[i].s1.name ++ " - " ++ ds[i].s2.name) ++ ")"
        lines := [("__nolegend__", withFirstError (binnedPoints sqrt ds[i].M (valueIn ds x i) (valueIn ds Y i) (lo i) (hi i)))] } ∧
      numericPoints turns[i].2.averages turns[i].2.centres turns[i].2.stds = binnedPoints sqrt ds[i].M (valueIn ds x i) (valueIn ds Y i) Lo Hi := by
    intro i h h'
    obtain ⟨t, t1, t2⟩ := tg i (i + 1, i) (by rw [List.getElem?_map, List.getElem?_range h']; rfl)
    obtain ⟨s, s1, s2⟩ := hturn i (List.mem_range.2 h')
    rw [t1] at s1
    cases s1
    have : turns[i] = t := by
      rw [List.getElem?_eq_getElem h] at t2
      exact Option.some.inj t2
    rw [this]
    exact s2 _ (List.getElem?_eq_getElem h')
  have htne : turns ≠ [] := by
    intro h
    rw [h] at tl
    exact hne (List.length_eq_zero_iff.1 tl.symm)
  have hlines : plotErrLists (turns.map fun q => q.2.averages) (turns.map fun q => q.2.centres) (turns.map fun q => q.2.stds) (pairLabels " - " ds) =
      .ok (ds.zipIdx.map fun p => (p.1.s1.name ++ " - " ++ p.1.s2.name, binnedPoints sqrt p.1.M (valueIn ds x p.2) (valueIn ds Y p.2) Lo Hi)) := by
    have e : (ds.zipIdx.map fun p => (p.1.s1.name ++ " - " ++ p.1.s2.name, binnedPoints sqrt p.1.M (valueIn ds x p.2) (valueIn ds Y p.2) Lo Hi)) =
        turns.zipIdx.map fun q => ((pairLabels " - " ds).getD q.2 "", numericPoints q.1.2.averages q.1.2.centres q.1.2.stds) := by
      apply List.ext_getElem
      · simp [tl]
      · intro i h1 h2
        simp only [List.length_map, List.length_zipIdx] at h1 h2
        simp only [List.getElem_map, List.getElem_zipIdx, Nat.zero_add]
        rw [(hfacts i h2 h1).2]
        simp [pairLabels, List.getD, h1]
    rw [e]
    unfold plotErrLists
    obtain ⟨q0, T', hT'⟩ := List.exists_cons_of_ne_nil htne
    obtain ⟨a, l, hal⟩ : ∃ a l, (turns.map fun q => q.2.centres) = a :: l := ⟨q0.2.centres, T'.map fun q => q.2.centres, by rw [hT']; rfl⟩
    rw [hal]
    simp only
    rw [← hal]
    refine bind_ok.2 ⟨q0.2.averages, by rw [hT']; rfl, ?_⟩
    rw [zip_map_map, zip_map_map, List.zipIdx_map, List.mapM_map]
    apply mapM_ok_of
    intro q hq
    have hql : q.2 < turns.length := by
      have := List.mem_zipIdx_iff_getElem?.1 hq
      exact (List.getElem?_eq_some_iff.1 this).1
    have hqp : q.2 < (pairLabels " - " ds).length := by
      have : (pairLabels " - " ds).length = ds.length := by simp [pairLabels]
      omega
    refine bind_ok.2 ⟨(pairLabels " - " ds).getD q.2 "", pyGet_ok.2 (by simp [List.getD, List.getElem?_eq_getElem hqp]), ?_⟩
    rfl
  refine bind_ok.2 ⟨_, e3, bind_ok.2 ⟨_, e4, bind_ok.2 ⟨_, allSeries hb, bind_ok.2 ⟨turns, by rw [hz]; exact ht, bind_ok.2 ⟨_, hlines, ?_⟩⟩⟩⟩⟩
  show Except.ok _ = Except.ok _
  congr 1
  unfold plotsOverVariable
  congr 1
  apply List.ext_getElem
  · simp [tl]
  · intro i h1 h2
    simp only [List.length_map, List.length_zipIdx] at h1 h2
    simp only [List.getElem_map, List.getElem_zipIdx, Nat.zero_add]
    exact (hfacts i h1 h2).1

end
end Verif
