import Verif.Lemmas.Compare
/-
Property C84: plots comparing calibrations.
-/
set_option autoImplicit false
namespace Verif
variable {α δ : Type} [Field α] [LinearOrder α] [IsStrictOrderedRing α]

/-- At 20 equally spaced values of each column of side `s`, without times or track indices, the model of the sensor gives `L` with the sensor's own parameters, and `L'` (and derivatives `J`) with
those of the list `p` which `labels` assigns to it. -/
def ComparedAt (sd : SensorData α (SensorModel α δ) (AdjModel α)) (labels : List String) (p : List α) (d : Dataset α) (s : Side α) (L L' : List α) (J : Option (List (List α))) : Prop :=
  ∃ e X J0, (s.name, e) ∈ sd ∧ SpreadColumns 20 d s X ∧ e.model X e.parameter e.constant none none none = .ok (L, J0) ∧
    e.model X (selectBy p labels s.name) e.constant none none none = .ok (L', J) ∧ L.length = 20 ∧ L'.length = 20 ∧
    ∀ J', J = some J' → DerivativesOf labels { d with M := 20 } s J'

/-- The plot of a sensor: 20 points, over each measurand its difference from the other measurand. The error bars of all points are twice the uncertainty of the *first*. -/
def PlotOf (name : String) (L L' u : List α) (D : Drawn α) : Prop :=
  D.file = "compare_calibration." ++ name ++ ".pdf" ∧ ∃ pts, D.lines = [("__nolegend__", pts)] ∧ pts.length = 20 ∧
    ∀ (r : Nat) (pt : α × α × Option α), pts[r]? = some pt → ∃ a b e, L[r]? = some a ∧ L'[r]? = some b ∧ u[0]? = some e ∧ pt = (a, a - b, some (2 * e))

/-- The files up to number `k` contain all sensors. -/
def AllSensors (ds : List (Dataset α)) (k : Nat) : Prop :=
  ∀ d ∈ ds, ∀ nm, nm = d.s1.name ∨ nm = d.s2.name → ∃ d' ∈ ds.take k, nm = d'.s1.name ∨ nm = d'.s2.name

omit [Field α] [LinearOrder α] [IsStrictOrderedRing α] in
theorem allSensors_length (ds : List (Dataset α)) : AllSensors ds ds.length := by
  intro d hd nm hnm
  rw [List.take_length]
  exact ⟨d, hd, hnm⟩

omit [LinearOrder α] [IsStrictOrderedRing α] in
theorem comparePlot_ok (name : String) {L L' u : List α} (h1 : L.length = 20) (h2 : L'.length = 20) (h3 : u.length = 20) :
    ∃ D, comparePlot name L (List.zipWith (· - ·) L L') u = .ok D ∧ PlotOf name L L' u D := by
  obtain ⟨a0, L0, rfl⟩ : ∃ a l, L = a :: l := by cases L with | nil => simp at h1 | cons a l => exact ⟨a, l, rfl⟩
  obtain ⟨b0, L0', rfl⟩ : ∃ a l, L' = a :: l := by cases L' with | nil => simp at h2 | cons a l => exact ⟨a, l, rfl⟩
  obtain ⟨u0, us, rfl⟩ : ∃ a l, u = a :: l := by cases u with | nil => simp at h3 | cons a l => exact ⟨a, l, rfl⟩
  have key : ∀ (A B C : List α), numericPoints (B.map some) (A.map some) (C.map fun v => some (2 * v)) = List.zipWith (fun a (bc : α × α) => (a, bc.1, some (2 * bc.2))) A (List.zip B C) := by
    intro A
    induction A with
    | nil => intro B C; simp [numericPoints]
    | cons a A ih =>
      intro B C
      cases B with
      | nil => simp [numericPoints]
      | cons b B =>
        cases C with
        | nil => simp [numericPoints]
        | cons c C =>
          have := ih B C
          simp only [numericPoints] at this
          simp [numericPoints, this]
  have hplot : ∃ pts, plotArray ((List.zipWith (· - ·) (a0 :: L0) (b0 :: L0')).map some) ((a0 :: L0).map some) ((u0 :: us).map fun v => some (2 * v)) = .ok pts ∧
      pts = (List.zipWith (fun a (bc : α × α) => (a, bc.1, some (2 * bc.2))) (a0 :: L0) (List.zip (List.zipWith (· - ·) (a0 :: L0) (b0 :: L0')) (u0 :: us))).map
        fun q => (q.1, q.2.1, some (2 * u0)) := by
    refine ⟨_, ?_, rfl⟩
    unfold plotArray
    rw [key]
    rfl
  obtain ⟨pts, hp1, hp2⟩ := hplot
  refine ⟨_, bind_ok.2 ⟨pts, hp1, rfl⟩, rfl, pts, rfl, ?_, ?_⟩
  · rw [hp2]
    simp only [List.length_map, List.length_zipWith, List.length_zip, h1, h2, h3, Nat.min_self]
  · intro r pt hpt
    rw [hp2] at hpt
    simp only [List.getElem?_map, List.getElem?_zipWith_eq_some, Option.map_eq_some_iff] at hpt
    obtain ⟨q, ⟨a, bc, ha, hbc, rfl⟩, rfl⟩ := hpt
    rw [List.getElem?_zip_eq_some, List.getElem?_zipWith_eq_some] at hbc
    obtain ⟨⟨a', b', h1', h2', h3'⟩, _⟩ := hbc
    rw [ha] at h1'
    obtain rfl := Option.some.inj h1'
    exact ⟨a, b', u0, ha, h2', rfl, by rw [← h3']⟩

omit [LinearOrder α] [IsStrictOrderedRing α] in
/-- The loop over the series draws two plots of each, until every sensor has been drawn. -/
theorem compareLoop_ok {ds : List (Dataset α)} {x : Idx} {f : String → Nat} (hcN : x.cNm = prefixSums (ds.map fun _ => 20)) (hIm : x.Im = ds.map fun d => (f d.s1.name, f d.s2.name))
    (hsens : ∀ nm, nm ∈ x.sensors ↔ ∃ d ∈ ds, nm = d.s1.name ∨ nm = d.s2.name) (hlook : ∀ d ∈ ds, x.sensors[f d.s1.name]? = some d.s1.name ∧ x.sensors[f d.s2.name]? = some d.s2.name)
    {A1 A2 B1 B2 u1 u2 : Nat → List α} {m1 diff u : List α × List α}
    (hm1 : m1 = (((List.range ds.length).map A1).flatten, ((List.range ds.length).map A2).flatten))
    (hdiff : diff = (((List.range ds.length).map fun i => List.zipWith (· - ·) (A1 i) (B1 i)).flatten, ((List.range ds.length).map fun i => List.zipWith (· - ·) (A2 i) (B2 i)).flatten))
    (hu : u = (((List.range ds.length).map u1).flatten, ((List.range ds.length).map u2).flatten))
    (hl : ∀ i, i < ds.length → (A1 i).length = 20 ∧ (A2 i).length = 20 ∧ (B1 i).length = 20 ∧ (B2 i).length = 20 ∧ (u1 i).length = 20 ∧ (u2 i).length = 20) :
    ∃ (k : Nat) (D1 D2 : Nat → Drawn α), k ≤ ds.length ∧ AllSensors ds k ∧ (∀ j, j < k → ¬ AllSensors ds j) ∧
      compareLoop x m1 diff u x.Im.length 0 [] = .ok ((List.range k).flatMap fun i => [D1 i, D2 i]) ∧
      ∀ (i : Nat) (d : Dataset α), i < k → ds[i]? = some d → PlotOf d.s1.name (A1 i) (B1 i) (u1 i) (D1 i) ∧ PlotOf d.s2.name (A2 i) (B2 i) (u2 i) (D2 i) := by
  classical
  have hex : ∃ k, AllSensors ds k := ⟨_, allSensors_length ds⟩
  let k := Nat.find hex
  have hk1 : AllSensors ds k := Nat.find_spec hex
  have hk2 : ∀ j, j < k → ¬ AllSensors ds j := fun j hj => Nat.find_min hex hj
  have hk3 : k ≤ ds.length := Nat.find_min' hex (allSensors_length ds)
  have hslice : ∀ (g : Nat → List α), (∀ i, i < ds.length → (g i).length = 20) → ∀ i, i < ds.length →
      slice ((List.range ds.length).map g).flatten ((ds.map fun _ => 20).take i).sum ((ds.map fun _ => 20).take (i + 1)).sum = g i := by
    intro g hg i hi
    have hlen : ((List.range ds.length).map g).map List.length = ds.map fun _ => 20 := by
      apply List.ext_getElem?
      intro j
      simp only [List.map_map, List.getElem?_map]
      by_cases hj : j < ds.length
      · rw [List.getElem?_range hj, List.getElem?_eq_getElem hj]
        simp [hg j hj]
      · rw [List.getElem?_eq_none (by simpa using hj), List.getElem?_eq_none (by omega)]; rfl
    have := slice_flatten ((List.range ds.length).map g) (i := i) (d := g i) (by simp [List.getElem?_map, List.getElem?_range hi])
    rw [hlen] at this
    exact this
  have hpl : ∀ i, ∃ D : Drawn α × Drawn α, ∀ d, ds[i]? = some d → (comparePlot d.s1.name (A1 i) (List.zipWith (· - ·) (A1 i) (B1 i)) (u1 i) = .ok D.1 ∧ PlotOf d.s1.name (A1 i) (B1 i) (u1 i) D.1) ∧
      (comparePlot d.s2.name (A2 i) (List.zipWith (· - ·) (A2 i) (B2 i)) (u2 i) = .ok D.2 ∧ PlotOf d.s2.name (A2 i) (B2 i) (u2 i) D.2) := by
    intro i
    by_cases hi : i < ds.length
    · obtain ⟨l1, l2, l3, l4, l5, l6⟩ := hl i hi
      obtain ⟨D1, e1⟩ := comparePlot_ok ds[i].s1.name l1 l3 l5
      obtain ⟨D2, e2⟩ := comparePlot_ok ds[i].s2.name l2 l4 l6
      refine ⟨(D1, D2), fun d hd => ?_⟩
      rw [List.getElem?_eq_getElem hi] at hd
      obtain rfl := Option.some.inj hd
      exact ⟨e1, e2⟩
    · refine ⟨(⟨"", "", "", []⟩, ⟨"", "", "", []⟩), fun d hd => ?_⟩
      rw [List.getElem?_eq_none (by omega)] at hd; cases hd
  choose D hD using hpl
  let names := fun i => (ds.take i).flatMap fun d : Dataset α => [d.s1.name, d.s2.name]
  have hnames : ∀ i nm, nm ∈ names i ↔ ∃ d ∈ ds.take i, nm = d.s1.name ∨ nm = d.s2.name := by
    intro i nm; simp [names]
  have hsame : ∀ i, sameNames (names i) x.sensors = true ↔ AllSensors ds i := by
    intro i
    unfold sameNames
    simp only [Bool.and_eq_true, List.all_eq_true, List.contains_iff_mem]
    constructor
    · rintro ⟨_, h⟩ d hd nm hnm
      exact (hnames i nm).1 (h nm ((hsens nm).2 ⟨d, hd, hnm⟩))
    · intro h
      refine ⟨fun nm hnm => ?_, fun nm hnm => ?_⟩
      · obtain ⟨d, hd, h'⟩ := (hnames i nm).1 hnm
        exact (hsens nm).2 ⟨d, List.mem_of_mem_take hd, h'⟩
      · obtain ⟨d, hd, h'⟩ := (hsens nm).1 hnm
        exact (hnames i nm).2 (h d hd nm h')
  have hturn : ∀ i d, ds[i]? = some d → compareTurn x m1 diff u i = .ok ([(D i).1, (D i).2], [d.s1.name, d.s2.name]) := by
    intro i d hd
    have hi : i < ds.length := (List.getElem?_eq_some_iff.1 hd).1
    obtain ⟨⟨e1, _⟩, ⟨e2, _⟩⟩ := hD i d hd
    obtain ⟨k1, k2⟩ := hlook d (List.mem_of_getElem? hd)
    have hz : ∀ i, i < ds.length → (List.zipWith (· - ·) (A1 i) (B1 i)).length = 20 ∧ (List.zipWith (· - ·) (A2 i) (B2 i)).length = 20 := by
      intro i hi
      obtain ⟨l1, l2, l3, l4, _⟩ := hl i hi
      simp [l1, l2, l3, l4]
    unfold compareTurn
    rw [hcN, hIm]
    refine bind_ok.2 ⟨_, pyGet_prefixSums _ (by simp; omega), bind_ok.2 ⟨_, pyGet_prefixSums _ (by simp; omega), bind_ok.2 ⟨(f d.s1.name, f d.s2.name), by rw [pyGet, List.getElem?_map, hd]; rfl,
      bind_ok.2 ⟨_, pyGet_ok.2 k1, bind_ok.2 ⟨(D i).1, ?_, bind_ok.2 ⟨_, pyGet_ok.2 k2, bind_ok.2 ⟨(D i).2, ?_, rfl⟩⟩⟩⟩⟩⟩⟩
    · rw [hm1, hdiff, hu]
      simp only
      rw [hslice A1 (fun i hi => (hl i hi).1) i hi, hslice _ (fun i hi => (hz i hi).1) i hi, hslice u1 (fun i hi => (hl i hi).2.2.2.2.1) i hi]
      exact e1
    · rw [hm1, hdiff, hu]
      simp only
      rw [hslice A2 (fun i hi => (hl i hi).2.1) i hi, hslice _ (fun i hi => (hz i hi).2) i hi, hslice u2 (fun i hi => (hl i hi).2.2.2.2.2) i hi]
      exact e2
  have hloop : ∀ (c i left : Nat), i + c = k → i + left = ds.length → compareLoop x m1 diff u left i (names i) = .ok ((List.range' i c).flatMap fun i => [(D i).1, (D i).2]) := by
    intro c
    induction c with
    | zero =>
      intro i left hi _
      have hi' : i = k := by omega
      have hs := (hsame i).2 (by rw [hi']; exact hk1)
      cases left with
      | zero => unfold compareLoop; rw [if_pos hs]; rfl
      | succ left => unfold compareLoop; rw [if_pos hs]; rfl
    | succ c ih =>
      intro i left hi hle
      have hs : ¬ sameNames (names i) x.sensors = true := fun h => hk2 i (by omega) ((hsame i).1 h)
      obtain ⟨left, rfl⟩ : ∃ l, left = l + 1 := ⟨left - 1, by omega⟩
      obtain ⟨d, hd⟩ : ∃ d, ds[i]? = some d := ⟨_, List.getElem?_eq_getElem (by omega)⟩
      unfold compareLoop
      rw [if_neg hs]
      have hnext : names i ++ [d.s1.name, d.s2.name] = names (i + 1) := by
        simp only [names, List.take_add_one, hd, List.flatMap_append]
        simp
      refine bind_ok.2 ⟨_, hturn i d hd, bind_ok.2 ⟨_, by simp only [hnext]; exact ih (i + 1) left (by omega) (by omega), ?_⟩⟩
      rw [List.range'_succ]
      rfl
  refine ⟨k, fun i => (D i).1, fun i => (D i).2, hk3, hk1, hk2, ?_, fun i d _ hd => ⟨(hD i d hd).1.2, (hD i d hd).2.2⟩⟩
  have := hloop k 0 ds.length (by omega) (by omega)
  rw [hIm, List.length_map, List.range_eq_range']
  exact this

omit [LinearOrder α] [IsStrictOrderedRing α] in
theorem zipWith_flatten (A B : Nat → List α) : ∀ (l : List Nat), (∀ i ∈ l, (A i).length = (B i).length) →
    List.zipWith (· - ·) (l.map A).flatten (l.map B).flatten = (l.map fun i => List.zipWith (· - ·) (A i) (B i)).flatten := by
  intro l
  induction l with
  | nil => intro _; rfl
  | cons i l ih =>
    intro h
    simp only [List.map_cons, List.flatten_cons]
    rw [List.zipWith_append (h i (by simp)), ih fun j hj => h j (by simp [hj])]

/-- **C84** With a numpy that takes numbers as sizes: the calibration in use is compared with parameters `p` of covariance `C`. Two plots are drawn of each file, in the order of the files, until
all sensors have been drawn and no longer. Each shows, at 20 equally spaced values of each column, what the sensor's model gives with its own parameters and the difference from what it gives with
those of `p` labelled as the sensor's in the match-ups; the error bars of all points are twice the uncertainty of the first point propagated from `C`. -/
theorem C84_points_partial (env : ReadEnv α δ) (dflt : AdjModel α) (ds : List (Dataset α)) (hc : ConsistentFiles ds) (hcol : ∀ d ∈ ds, 1 ≤ d.s1.m ∧ 1 ≤ d.s2.m) (hM : ∀ d ∈ ds, 1 ≤ d.M)
    (sd : SensorData α (SensorModel α δ) (AdjModel α)) (hn : (sd.map (·.1)).Nodup) (ms : Evaluable α δ) (h : openMatchUpWith env dflt ds sd = .ok ms)
    (labels : List String) (hlab : ms.mu.idx.parameter_sensor = some labels) (p : List α) (C : List (List α)) (hCs : SquareMatrix C labels.length) (hC : NoNegativeVariance C labels.length)
    (A1 A2 B1 B2 : Nat → List α) (J1 J2 : Nat → Option (List (List α)))
    (hside : ∀ (i : Nat) (d : Dataset α), ds[i]? = some d → ComparedAt sd labels p d d.s1 (A1 i) (B1 i) (J1 i) ∧ ComparedAt sd labels p d d.s2 (A2 i) (B2 i) (J2 i))
    (sqrt : α → α) (hsq : ∀ x, 0 ≤ x → 0 ≤ sqrt x ∧ sqrt x * sqrt x = x) :
    ∃ (k : Nat) (D1 D2 : Nat → Drawn α) (u1 u2 : Nat → List α), k ≤ ds.length ∧ AllSensors ds k ∧ (∀ j, j < k → ¬ AllSensors ds j) ∧
      compareCalibration sqrt true ms p C = .ok ((List.range k).flatMap fun i => [D1 i, D2 i]) ∧
      ∀ (i : Nat) (d : Dataset α), i < k → ds[i]? = some d → PlotOf d.s1.name (A1 i) (B1 i) (u1 i) (D1 i) ∧ PlotOf d.s2.name (A2 i) (B2 i) (u2 i) (D2 i) ∧
        UncertaintyOf C labels { d with M := 20 } d.s1 (J1 i) (u1 i) ∧ UncertaintyOf C labels { d with M := 20 } d.s2 (J2 i) (u2 i) := by
  obtain ⟨sim, f, labels', s1, s2, s3, s4, s5, s6, s7, s8, s9, s10, s11⟩ := simulated_side hc hcol hM hn h 20
  rw [hlab] at s3
  obtain rfl := Option.some.inj s3
  have hget : ∀ i, i < ds.length → ∃ d, ds[i]? = some d := fun i hi => ⟨_, List.getElem?_eq_getElem hi⟩
  -- one side of one series, with any parameters
  have hA : ∀ (i : Nat) (d : Dataset α) (s : Side α) (L L' : List α) (J : Option (List (List α))), ds[i]? = some d → s = d.s1 ∨ s = d.s2 → ComparedAt sd labels p d s L L' J →
      (∃ J0, sideMeasurand sim (i + 1) (f s.name) = .ok (L, J0)) ∧ sideMeasurand { sim with a := p } (i + 1) (f s.name) = .ok (L', J) ∧
      ∃ u, sideUncertainty sqrt true C { sim with a := p } (i + 1) (f s.name) (List.replicate 20 0) = .ok u ∧ UncertaintyOf C labels { d with M := 20 } s J u := by
    intro i d s L L' J hd hs hcmp
    obtain ⟨e, X, J0, he, hX, m1, m2, l1, l2, hJ⟩ := hcmp
    obtain ⟨t1, t2, t3⟩ := s11 i d s hd hs
    obtain ⟨q1, _, q2⟩ := t3 e he
    have r2 := q2 X hX p
    have r1 := q2 X hX ms.a
    rw [q1] at r1
    rw [m2] at r2
    rw [m1, ← s2] at r1
    have hm : 1 ≤ s.m := by
      have := hcol d (List.mem_of_getElem? hd)
      rcases hs with rfl | rfl
      exacts [this.1, this.2]
    exact ⟨⟨J0, r1⟩, r2, sideUncertainty_ok (ms := { sim with a := p }) (d := { d with M := 20 }) hsq hCs hC s4 hm t1 t2 r2 hJ⟩
  have hlen : ∀ i, i < ds.length → (A1 i).length = 20 ∧ (A2 i).length = 20 ∧ (B1 i).length = 20 ∧ (B2 i).length = 20 := by
    intro i hi
    obtain ⟨d, hd⟩ := hget i hi
    obtain ⟨⟨_, _, _, _, _, _, _, a1, a2, _⟩, ⟨_, _, _, _, _, _, _, b1, b2, _⟩⟩ := hside i d hd
    exact ⟨a1, b1, a2, b2⟩
  have hex : ∀ i, ∃ u : List α × List α, ∀ d, ds[i]? = some d →
      (sideUncertainty sqrt true C { sim with a := p } (i + 1) (f d.s1.name) (List.replicate 20 0) = .ok u.1 ∧ UncertaintyOf C labels { d with M := 20 } d.s1 (J1 i) u.1) ∧
      (sideUncertainty sqrt true C { sim with a := p } (i + 1) (f d.s2.name) (List.replicate 20 0) = .ok u.2 ∧ UncertaintyOf C labels { d with M := 20 } d.s2 (J2 i) u.2) := by
    intro i
    cases hd : ds[i]? with
    | none => exact ⟨([], []), fun d h => by cases h⟩
    | some d =>
      obtain ⟨c1, c2⟩ := hside i d hd
      obtain ⟨_, _, u1, e1⟩ := hA i d _ _ _ _ hd (.inl rfl) c1
      obtain ⟨_, _, u2, e2⟩ := hA i d _ _ _ _ hd (.inr rfl) c2
      refine ⟨(u1, u2), fun d' h' => ?_⟩
      obtain rfl := Option.some.inj h'
      exact ⟨e1, e2⟩
  choose u hu using hex
  -- evaluation
  let sel := (List.range ds.length).map (· + 1)
  have hsel : SelArg.series sim.mu.idx (.num 0) = sel := s8
  have hsp : sel.Pairwise (· < ·) := by
    simp only [sel, List.pairwise_map]
    exact List.pairwise_lt_range.imp fun h => by omega
  have hmem : ∀ n ∈ sel, 1 ≤ n ∧ n - 1 < ds.length ∧ n - 1 + 1 = n := by
    intro n hn'
    obtain ⟨i, hi, rfl⟩ := List.mem_map.1 hn'
    have := List.mem_range.1 hi
    exact ⟨by omega, by omega, by omega⟩
  have hrn : ∀ n ∈ sel, 1 ≤ n ∧ n ≤ sim.mu.idx.Nm.length := by
    intro n hn'
    have := hmem n hn'
    rw [s5, List.length_map]; omega
  have hMn : ∀ n ∈ sel, sim.mu.idx.Nm.getD (n - 1) 0 = 20 := by
    intro n hn'
    obtain ⟨d, hd⟩ := hget _ (hmem n hn').2.1
    rw [s5, List.getD, List.getElem?_map, hd]; rfl
  have hpair : ∀ n ∈ sel, ∀ d, ds[n - 1]? = some d → sim.mu.idx.Im[n - 1]? = some (f d.s1.name, f d.s2.name) := by
    intro n _ d hd
    rw [s10, List.getElem?_map, hd]; rfl
  have hpairs : ∀ n ∈ sel, sim.mu.idx.Im[n - 1]? = some (sim.mu.idx.Im.getD (n - 1) (0, 0)) := by
    intro n hn'
    obtain ⟨d, hd⟩ := hget _ (hmem n hn').2.1
    rw [List.getD, hpair n hn' d hd]; rfl
  have hflat : ∀ g : Nat → List α, (sel.map fun n => g (n - 1)).flatten = ((List.range ds.length).map g).flatten := by
    intro g
    simp only [sel, List.map_map]
    rfl
  have hm1 : evaluateMeasurand sim (.num 0) = .ok (((List.range ds.length).map A1).flatten, ((List.range ds.length).map A2).flatten) := by
    rw [← hflat A1, ← hflat A2]
    refine evaluateMeasurand_ok hsel hsp hrn hpairs ?_ ?_
    · intro n hn'
      obtain ⟨l1, l2, _⟩ := hlen _ (hmem n hn').2.1
      rw [hMn n hn']
      exact ⟨l1, l2⟩
    · intro n hn'
      obtain ⟨d, hd⟩ := hget _ (hmem n hn').2.1
      obtain ⟨c1, c2⟩ := hside _ d hd
      have e1 := (hA _ d _ _ _ _ hd (.inl rfl) c1).1
      have e2 := (hA _ d _ _ _ _ hd (.inr rfl) c2).1
      rw [(hmem n hn').2.2] at e1 e2
      rw [List.getD, hpair n hn' d hd]
      exact ⟨e1, e2⟩
  have hm2 : evaluateMeasurandUnc sqrt true C { sim with a := p } (.num 0) = .ok ((((List.range ds.length).map B1).flatten, ((List.range ds.length).map B2).flatten),
      (((List.range ds.length).map fun i => (u i).1).flatten, ((List.range ds.length).map fun i => (u i).2).flatten)) := by
    unfold evaluateMeasurandUnc
    refine bind_ok.2 ⟨(((List.range ds.length).map B1).flatten, ((List.range ds.length).map B2).flatten), ?_, ?_⟩
    · rw [← hflat B1, ← hflat B2]
      refine evaluateMeasurand_ok hsel hsp hrn hpairs ?_ ?_
      · intro n hn'
        obtain ⟨_, _, l1, l2⟩ := hlen _ (hmem n hn').2.1
        show (B1 (n - 1)).length = sim.mu.idx.Nm.getD (n - 1) 0 ∧ (B2 (n - 1)).length = sim.mu.idx.Nm.getD (n - 1) 0
        rw [hMn n hn']
        exact ⟨l1, l2⟩
      · intro n hn'
        obtain ⟨d, hd⟩ := hget _ (hmem n hn').2.1
        obtain ⟨c1, c2⟩ := hside _ d hd
        have e1 := (hA _ d _ _ _ _ hd (.inl rfl) c1).2.1
        have e2 := (hA _ d _ _ _ _ hd (.inr rfl) c2).2.1
        rw [(hmem n hn').2.2] at e1 e2
        rw [List.getD, hpair n hn' d hd]
        exact ⟨⟨_, e1⟩, ⟨_, e2⟩⟩
    · show (do
        let n ← pyGet (selBounds sim.mu.idx (SelArg.series sim.mu.idx (.num 0))) ((selBounds sim.mu.idx (SelArg.series sim.mu.idx (.num 0))).length - 1)
        let w ← fillRows sim.mu.idx (SelArg.series sim.mu.idx (.num 0)) (sideUncertainty sqrt true C { sim with a := p }) (List.replicate n 0, List.replicate n 0)
        pure ((((List.range ds.length).map B1).flatten, ((List.range ds.length).map B2).flatten), w)) = _
      rw [hsel, selBounds_eq hsp hrn]
      refine bind_ok.2 ⟨(sel.map fun n => sim.mu.idx.Nm.getD (n - 1) 0).sum, ?_, ?_⟩
      · rw [prefixSums_length, Nat.add_sub_cancel, pyGet_prefixSums _ (Nat.le_refl _), List.take_length]
      · rw [flatten_replicate_zeros, ← hflat fun i => (u i).1, ← hflat fun i => (u i).2]
        refine bind_ok.2 ⟨((sel.map fun n => (u (n - 1)).1).flatten, (sel.map fun n => (u (n - 1)).2).flatten), ?_, rfl⟩
        refine fillRows_ok (pairs := fun n => sim.mu.idx.Im.getD (n - 1) (0, 0)) hsp hrn hpairs (by intro n _; simp) ?_ ?_
        · intro n hn'
          obtain ⟨d, hd⟩ := hget _ (hmem n hn').2.1
          rw [hMn n hn']
          exact ⟨(hu _ d hd).1.2.1, (hu _ d hd).2.2.1⟩
        · intro n hn'
          obtain ⟨d, hd⟩ := hget _ (hmem n hn').2.1
          have e := hu _ d hd
          rw [(hmem n hn').2.2] at e
          rw [hMn n hn', List.getD, hpair n hn' d hd]
          exact ⟨e.1.1, e.2.1⟩
  have hlen' : ∀ i, i < ds.length → (A1 i).length = 20 ∧ (A2 i).length = 20 ∧ (B1 i).length = 20 ∧ (B2 i).length = 20 ∧ (u i).1.length = 20 ∧ (u i).2.length = 20 := by
    intro i hi
    obtain ⟨d, hd⟩ := hget i hi
    obtain ⟨l1, l2, l3, l4⟩ := hlen i hi
    exact ⟨l1, l2, l3, l4, (hu i d hd).1.2.1, (hu i d hd).2.2.1⟩
  obtain ⟨k, D1, D2, k1, k2, k3, k4, k5⟩ := compareLoop_ok (ds := ds) (x := sim.mu.idx) (f := f) (A1 := A1) (A2 := A2) (B1 := B1) (B2 := B2) (u1 := fun i => (u i).1) (u2 := fun i => (u i).2)
    s6 s10 s9 (fun d hd => by
      obtain ⟨i, hi⟩ := List.mem_iff_getElem?.1 hd
      exact ⟨(s11 i d _ hi (.inl rfl)).1, (s11 i d _ hi (.inr rfl)).1⟩) rfl rfl rfl hlen'
  refine ⟨k, D1, D2, fun i => (u i).1, fun i => (u i).2, k1, k2, k3, ?_, fun i d hi hd => ⟨(k5 i d hi hd).1, (k5 i d hi hd).2, (hu i d hd).1.2, (hu i d hd).2.2⟩⟩
  unfold compareCalibration
  refine bind_ok.2 ⟨sim, s1, bind_ok.2 ⟨_, hm1, bind_ok.2 ⟨_, hm2, ?_⟩⟩⟩
  simp only
  rw [zipWith_flatten A1 B1 _ fun i hi => by have := hlen i (List.mem_range.1 hi); omega, zipWith_flatten A2 B2 _ fun i hi => by have := hlen i (List.mem_range.1 hi); omega]
  exact k4

omit [LinearOrder α] [IsStrictOrderedRing α] in
theorem sensorFile_inj {a b : String} (h : "compare_calibration." ++ a ++ ".pdf" = "compare_calibration." ++ b ++ ".pdf") : a = b := by
  have := congrArg String.toList h
  simp only [String.toList_append, List.append_cancel_right_eq, List.append_cancel_left_eq] at this
  exact String.toList_injective this

omit [LinearOrder α] [IsStrictOrderedRing α] in
/-- **C84** In the end every sensor of the match-ups has a plot, and it is one of those drawn for that sensor. -/
theorem C84_every_sensor {ds : List (Dataset α)} {k : Nat} (hall : AllSensors ds k) {D1 D2 : Nat → Drawn α} {A1 A2 B1 B2 u1 u2 : Nat → List α} (hk : k ≤ ds.length)
    (hD : ∀ (i : Nat) (d : Dataset α), i < k → ds[i]? = some d → PlotOf d.s1.name (A1 i) (B1 i) (u1 i) (D1 i) ∧ PlotOf d.s2.name (A2 i) (B2 i) (u2 i) (D2 i))
    {d : Dataset α} (hd : d ∈ ds) {nm : String} (hnm : nm = d.s1.name ∨ nm = d.s2.name) :
    ∃ (D : Drawn α) (i : Nat) (d' : Dataset α), drawnAt ((List.range k).flatMap fun i => [D1 i, D2 i]) ("compare_calibration." ++ nm ++ ".pdf") = some D ∧ i < k ∧ ds[i]? = some d' ∧
      ((nm = d'.s1.name ∧ D = D1 i ∧ PlotOf nm (A1 i) (B1 i) (u1 i) D) ∨ (nm = d'.s2.name ∧ D = D2 i ∧ PlotOf nm (A2 i) (B2 i) (u2 i) D)) := by
  obtain ⟨d', hd', hnm'⟩ := hall d hd nm hnm
  obtain ⟨i, hi⟩ := List.mem_iff_getElem?.1 hd'
  have hik : i < k := by
    have := (List.getElem?_eq_some_iff.1 hi).1
    simp at this
    omega
  rw [List.getElem?_take_of_lt hik] at hi
  have hne : ((List.range k).flatMap fun i => [D1 i, D2 i]).filter (fun D => D.file == "compare_calibration." ++ nm ++ ".pdf") ≠ [] := by
    obtain ⟨p1, p2⟩ := hD i d' hik hi
    rcases hnm' with rfl | rfl
    · refine List.ne_nil_of_mem (a := D1 i) (List.mem_filter.2 ⟨List.mem_flatMap.2 ⟨i, List.mem_range.2 hik, by simp⟩, ?_⟩)
      rw [p1.1]; exact beq_self_eq_true _
    · refine List.ne_nil_of_mem (a := D2 i) (List.mem_filter.2 ⟨List.mem_flatMap.2 ⟨i, List.mem_range.2 hik, by simp⟩, ?_⟩)
      rw [p2.1]; exact beq_self_eq_true _
  have hlast := List.getLast?_eq_some_getLast hne
  have hmem := List.getLast_mem hne
  obtain ⟨hm, hf⟩ := List.mem_filter.1 hmem
  have hf := eq_of_beq hf
  obtain ⟨j, hj, hj2⟩ := List.mem_flatMap.1 hm
  have hj := List.mem_range.1 hj
  obtain ⟨dj, hdj⟩ : ∃ d, ds[j]? = some d := ⟨_, List.getElem?_eq_getElem (by omega)⟩
  obtain ⟨p1, p2⟩ := hD j dj hj hdj
  refine ⟨_, j, dj, hlast, hj, hdj, ?_⟩
  simp only [List.mem_cons, List.not_mem_nil, or_false] at hj2
  rcases hj2 with e | e
  · left
    rw [e] at hf ⊢
    rw [p1.1] at hf
    have := sensorFile_inj hf
    rw [← this]
    exact ⟨rfl, rfl, p1⟩
  · right
    rw [e] at hf ⊢
    rw [p2.1] at hf
    have := sensorFile_inj hf
    rw [← this]
    exact ⟨rfl, rfl, p2⟩

/-- **C84** A calibration compared with itself shows no differences. -/
theorem C84_itself (env : ReadEnv α δ) (dflt : AdjModel α) (ds : List (Dataset α)) (hc : ConsistentFiles ds) (hcol : ∀ d ∈ ds, 1 ≤ d.s1.m ∧ 1 ≤ d.s2.m) (hM : ∀ d ∈ ds, 1 ≤ d.M)
    (sd : SensorData α (SensorModel α δ) (AdjModel α)) (hn : (sd.map (·.1)).Nodup) (ms : Evaluable α δ) (h : openMatchUpWith env dflt ds sd = .ok ms)
    (labels : List String) (hlab : ms.mu.idx.parameter_sensor = some labels) (C : List (List α)) (hCs : SquareMatrix C labels.length) (hC : NoNegativeVariance C labels.length)
    (A1 A2 B1 B2 : Nat → List α) (J1 J2 : Nat → Option (List (List α)))
    (hside : ∀ (i : Nat) (d : Dataset α), ds[i]? = some d → ComparedAt sd labels ms.a d d.s1 (A1 i) (B1 i) (J1 i) ∧ ComparedAt sd labels ms.a d d.s2 (A2 i) (B2 i) (J2 i))
    (sqrt : α → α) (hsq : ∀ x, 0 ≤ x → 0 ≤ sqrt x ∧ sqrt x * sqrt x = x) :
    ∃ l, compareCalibration sqrt true ms ms.a C = .ok l ∧ l ≠ [] ∧ ∀ D ∈ l, ∀ line ∈ D.lines, line.2 ≠ [] ∧ ∀ pt ∈ line.2, pt.2.1 = 0 := by
  obtain ⟨k, D1, D2, u1, u2, k1, k2, k3, k4, k5⟩ := C84_points_partial env dflt ds hc hcol hM sd hn ms h labels hlab ms.a C hCs hC A1 A2 B1 B2 J1 J2 hside sqrt hsq
  obtain ⟨sim, f, labels', s1, s2, s3, s4, s5, s6, s7, s8, s9, s10, s11⟩ := simulated_side hc hcol hM hn h 20
  rw [hlab] at s3
  obtain rfl := Option.some.inj s3
  have hAB : ∀ (i : Nat) (d : Dataset α) (s : Side α) (L L' : List α) (J : Option (List (List α))), ds[i]? = some d → s = d.s1 ∨ s = d.s2 → ComparedAt sd labels ms.a d s L L' J → L' = L := by
    intro i d s L L' J hd hs hcmp
    obtain ⟨e, X, J0, he, hX, m1, m2, _⟩ := hcmp
    obtain ⟨_, _, t3⟩ := s11 i d s hd hs
    obtain ⟨q1, _⟩ := t3 e he
    rw [q1, m1] at m2
    exact (congrArg Prod.fst (Except.ok.inj m2)).symm
  have hzero : ∀ (nm : String) (L u : List α) (D : Drawn α), PlotOf nm L L u D → ∀ line ∈ D.lines, line.2 ≠ [] ∧ ∀ pt ∈ line.2, pt.2.1 = 0 := by
    rintro nm L u D ⟨_, pts, hl, hlen, hp⟩ line hline
    rw [hl] at hline
    obtain rfl := List.mem_singleton.1 hline
    refine ⟨fun h0 => ?_, ?_⟩
    · have h0 : pts = [] := h0
      rw [h0] at hlen; cases hlen
    · intro pt hpt
      obtain ⟨r, hr⟩ := List.mem_iff_getElem?.1 hpt
      obtain ⟨a, b, e, ha, hb, _, rfl⟩ := hp r pt hr
      rw [ha] at hb
      obtain rfl := Option.some.inj hb
      exact sub_self a
  have hkpos : 0 < k := by
    rcases Nat.eq_zero_or_pos k with h0 | h0
    · exfalso
      subst h0
      have hne : ds ≠ [] := by
        obtain ⟨mu, e, hmu, he, rfl⟩ := openMatchUpWith_inv h
        exact openMatchUp_nonempty hmu
      obtain ⟨d, hd⟩ := List.exists_mem_of_ne_nil ds hne
      obtain ⟨d', hd', _⟩ := k2 d hd _ (.inl rfl)
      simp at hd'
    · exact h0
  refine ⟨_, k4, ?_, ?_⟩
  · exact List.ne_nil_of_mem (List.mem_flatMap.2 ⟨0, List.mem_range.2 hkpos, List.mem_cons_self⟩)
  · intro D hDm
    obtain ⟨i, hi, hDi⟩ := List.mem_flatMap.1 hDm
    have hi := List.mem_range.1 hi
    obtain ⟨d, hd⟩ : ∃ d, ds[i]? = some d := ⟨_, List.getElem?_eq_getElem (by omega)⟩
    obtain ⟨p1, p2, _⟩ := k5 i d hi hd
    obtain ⟨c1, c2⟩ := hside i d hd
    rw [hAB i d _ _ _ _ hd (.inl rfl) c1] at p1
    rw [hAB i d _ _ _ _ hd (.inr rfl) c2] at p2
    simp only [List.mem_cons, List.not_mem_nil, or_false] at hDi
    rcases hDi with rfl | rfl
    · exact hzero _ _ _ _ p1
    · exact hzero _ _ _ _ p2

/-- **C84** (failure) With a numpy that refuses numbers that are not integers as sizes no comparison succeeds if some model gives derivatives. -/
theorem C84_recent_numpy_fails (env : ReadEnv α δ) (dflt : AdjModel α) (ds : List (Dataset α)) (hc : ConsistentFiles ds) (hcol : ∀ d ∈ ds, 1 ≤ d.s1.m ∧ 1 ≤ d.s2.m) (hM : ∀ d ∈ ds, 1 ≤ d.M)
    (sd : SensorData α (SensorModel α δ) (AdjModel α)) (hn : (sd.map (·.1)).Nodup) (ms : Evaluable α δ) (h : openMatchUpWith env dflt ds sd = .ok ms)
    (labels : List String) (hlab : ms.mu.idx.parameter_sensor = some labels) (p : List α) (C : List (List α)) {d : Dataset α} (hd : d ∈ ds) {s : Side α} (hs : s = d.s1 ∨ s = d.s2)
    {L L' : List α} {J : List (List α)} (hcmp : ComparedAt sd labels p d s L L' (some J)) (sqrt : α → α) (out : List (Drawn α)) : compareCalibration sqrt false ms p C ≠ .ok out := by
  intro hr
  obtain ⟨sim, f, labels', s1, s2, s3, s4, s5, s6, s7, s8, s9, s10, s11⟩ := simulated_side hc hcol hM hn h 20
  rw [hlab] at s3
  obtain rfl := Option.some.inj s3
  obtain ⟨sim', h1, hr⟩ := bind_ok.1 hr
  rw [show compareSamples = 20 from rfl, s1] at h1
  obtain rfl := Except.ok.inj h1
  obtain ⟨m1, _, hr⟩ := bind_ok.1 hr
  obtain ⟨m2, hm2, _⟩ := bind_ok.1 hr
  obtain ⟨y0, _, hm2⟩ := bind_ok.1 hm2
  obtain ⟨k, _, hm2⟩ := bind_ok.1 hm2
  obtain ⟨u, hu, _⟩ := bind_ok.1 hm2
  obtain ⟨i, hi⟩ := List.mem_iff_getElem?.1 hd
  have hns : i + 1 ∈ SelArg.series sim.mu.idx (.num 0) := by
    show i + 1 ∈ seriesSet sim.mu.idx.n_mu
    rw [s8]
    exact List.mem_map.2 ⟨i, List.mem_range.2 (List.getElem?_eq_some_iff.1 hi).1, rfl⟩
  obtain ⟨pair, c1, c2, z1, z2, hp, q1, q2⟩ := fillRows_inv hu hns
  have hp' : sim.mu.idx.Im[i]? = some pair := hp
  rw [s10, List.getElem?_map, hi] at hp'
  obtain rfl := Option.some.inj hp'
  obtain ⟨e, X, J0, he, hX, e1, e2, _⟩ := hcmp
  obtain ⟨_, _, t3⟩ := s11 i d s hi hs
  obtain ⟨_, _, t4⟩ := t3 e he
  have hy := t4 X hX p
  rw [e2] at hy
  have hbad : ∀ c z, sideUncertainty sqrt false C { sim with a := p } (i + 1) (f s.name) c ≠ .ok z := by
    intro c z hz
    obtain ⟨y', hy', hz⟩ := bind_ok.1 hz
    rw [hy] at hy'
    obtain rfl := Except.ok.inj hy'
    obtain ⟨m, _, hz⟩ := bind_ok.1 hz
    obtain ⟨nm, _, hz⟩ := bind_ok.1 hz
    obtain ⟨V, hV, _⟩ := bind_ok.1 hz
    unfold sensorCovariance at hV
    split at hV
    · exact absurd hV (by simp)
    · simp only at hV
      split at hV
      · exact absurd hV (by simp)
      · exact absurd hV (by simp)
  rcases hs with rfl | rfl
  · exact hbad _ _ q1
  · exact hbad _ _ q2

omit [IsStrictOrderedRing α] in
/-- Only the data, the tables and the calibration matter to a comparison. -/
theorem compareCalibration_data (sqrt : α → α) (fs : Bool) {ms ms' : Evaluable α δ} (h1 : ms'.mu.idx = ms.mu.idx) (h2 : ms'.mu.values = ms.mu.values) (h3 : ms'.mu.ks = ms.mu.ks) (h4 : ms'.a = ms.a)
    (h5 : ms'.constant = ms.constant) (h6 : ms'.sensor_model = ms.sensor_model) (p : List α) (C : List (List α)) : compareCalibration sqrt fs ms' p C = compareCalibration sqrt fs ms p C := by
  obtain ⟨mu, a, c, m, g⟩ := ms
  obtain ⟨mu', a', c', m', g'⟩ := ms'
  simp only at h1 h2 h3 h4 h5 h6
  subst h4; subst h5; subst h6
  unfold compareCalibration simulate
  simp only [h1, h2, h3]
  cases simulateX mu.values mu.idx.idx (simulateIdx mu.idx compareSamples).idx with
  | error e => rfl
  | ok v =>
    cases simulateX mu.ks mu.idx.cNm (simulateIdx mu.idx compareSamples).cNm with
    | error e => rfl
    | ok w => rfl

omit [IsStrictOrderedRing α] in
/-- **C84** The operator compares the calibration of the sensor data with the parameters and the covariance found in the result directory, in the order in which they are stored there. -/
theorem C84_op (env : ReadEnv α δ) (ds : List (Dataset α)) (sd : SensorData α (SensorModel α δ) (AdjModel α)) (ms : Evaluable α δ) (h : openMatchUpWith env defaultAdjustment ds sd = .ok ms)
    (sqrt : α → α) (fs : Bool) (out : Dir α) (listing : List (List Char)) (q : OpenedOutput α × Option (OpenedResiduals α)) (hq : openResult out listing false = .ok q) :
    compareOp env sqrt fs ds sd out listing = compareCalibration sqrt fs ms q.1.parameter q.1.covariance := by
  obtain ⟨mu, e, hmu, he, rfl⟩ := openMatchUpWith_inv h
  obtain ⟨_, h01, _⟩ := C74_same_data env ds mu hmu
  unfold compareOp
  rw [h01, ok_step]
  have hset : setSensorData defaultAdjustment mu.forgetUnc sd = .ok ⟨{ mu.forgetUnc with idx := mu.idx.withSensorData e }, e.a, e.constant, e.sensor_model, e.adjustment_model⟩ :=
    bind_ok.2 ⟨e, he, rfl⟩
  rw [hset, ok_step, hq, ok_step]
  refine compareCalibration_data sqrt fs ?_ ?_ ?_ ?_ ?_ ?_ _ _ <;> rfl

end Verif
