import Verif.Lemmas.Order
/-
The K computed from an estimate, file by file.
-/
set_option autoImplicit false
namespace Verif
open Finset (sum_congr)
variable {α δ : Type}

/-- The sensor data extracted does not depend on the order of the sensors. -/
theorem extract_same {ρ σ : Type} {dflt : σ} {sd : SensorData α ρ σ} {l l' : List String} (hm : ∀ s, s ∈ l ↔ s ∈ l') {e e' : Extracted α ρ σ}
    (h : extractSensorData dflt sd l = .ok e) (h' : extractSensorData dflt sd l' = .ok e') :
    e'.a = e.a ∧ e'.a_sensor = e.a_sensor ∧ e'.constant = e.constant ∧ e'.constant_sensor = e.constant_sensor := by
  have hstep : extractStep (α := α) (ρ := ρ) (σ := σ) l' = extractStep l := by
    funext st x
    unfold extractStep
    simp only [hm]
  unfold extractSensorData at h h'
  obtain ⟨_, _, h⟩ := bind_ok.1 h
  obtain ⟨_, _, h'⟩ := bind_ok.1 h'
  rw [pure_ok] at h h'
  subst h h'
  rw [hstep]
  exact ⟨rfl, rfl, rfl, rfl⟩

/-- The models extracted for a sensor are those of its name. -/
theorem extract_models {ρ σ : Type} {dflt : σ} {sd : SensorData α ρ σ} {l : List String} {e : Extracted α ρ σ} (h : extractSensorData dflt sd l = .ok e) {i : Nat} {s : String}
    (hs : l[i]? = some s) : ∃ f B, extractModel dflt sd s = .ok (f, B) ∧ e.sensor_model[i]? = some f ∧ e.adjustment_model[i]? = some B := by
  unfold extractSensorData at h
  obtain ⟨models, hm, h⟩ := bind_ok.1 h
  rw [pure_ok] at h
  subst h
  obtain ⟨m1, m2⟩ := mapM_ok_get hm
  obtain ⟨b, hb, hbi⟩ := m2 i s hs
  exact ⟨b.1, b.2, hb, by simp [hbi], by simp [hbi]⟩

/-- Sensor data for the sensors of one list are sensor data for those of another. -/
theorem extract_succeeds {ρ σ : Type} {dflt : σ} {sd : SensorData α ρ σ} {l l' : List String} (hm : ∀ s, s ∈ l' → s ∈ l) {e : Extracted α ρ σ}
    (h : extractSensorData dflt sd l = .ok e) : ∃ e', extractSensorData dflt sd l' = .ok e' := by
  have : ∀ s ∈ l', ∃ b, extractModel dflt sd s = .ok b := by
    intro s hs
    obtain ⟨i, hi⟩ := List.mem_iff_getElem?.1 (hm s hs)
    obtain ⟨f, B, hb, _⟩ := extract_models h hi
    exact ⟨_, hb⟩
  obtain ⟨r, hr⟩ := mapM_total this
  exact ⟨_, bind_ok.2 ⟨r, hr, rfl⟩⟩

variable [Field α]

/-- The adjusted measurand of a sensor with data columns `X`, at the parameters `par`. -/
def SideK (sd : SensorData α (SensorModel α δ) (AdjModel α)) (labels clabels : List String) (par con : List α) (name : String) (X : List (List α)) (a : List α) : Prop :=
  ∃ f B y J d, extractModel defaultAdjustment sd name = .ok (f, B) ∧ f X (labelled labels par name) (labelled clabels con name) none none none = .ok (y, J) ∧ B y = .ok (a, d)

theorem SideK.unique {sd : SensorData α (SensorModel α δ) (AdjModel α)} {labels clabels : List String} {par con : List α} {name : String} {X : List (List α)} {a a' : List α}
    (h : SideK sd labels clabels par con name X a) (h' : SideK sd labels clabels par con name X a') : a = a' := by
  obtain ⟨f, B, y, J, d, h1, h2, h3⟩ := h
  obtain ⟨f', B', y', J', d', h1', h2', h3'⟩ := h'
  rw [h1] at h1'; cases h1'
  rw [h2] at h2'; cases h2'
  rw [h3] at h3'; cases h3'
  rfl

section

/-- The columns of a sensor of a file in an array of values. -/
def MatchUp.Cols (mu : MatchUp α δ) (ds : List (Dataset α)) (vals : List α) (i : Nat) (d : Dataset α) (s : Side α) (X : List (List α)) : Prop :=
  X.length = s.m ∧ ∀ c b, mu.BlockOf ds b i d s c → X[c]? = some (vector d.M fun r => mu.elem vals b r)

/-- The K of one file. -/
def FileK (sd : SensorData α (SensorModel α δ) (AdjModel α)) (labels clabels : List String) (par con : List α) (mu : MatchUp α δ) (ds : List (Dataset α)) (vals : List α)
    (i : Nat) (d : Dataset α) (k : List α) : Prop :=
  ∃ X1 X2 a1 a2, mu.Cols ds vals i d d.s1 X1 ∧ mu.Cols ds vals i d d.s2 X2 ∧ SideK sd labels clabels par con d.s1.name X1 a1 ∧
    SideK sd labels clabels par con d.s2.name X2 a2 ∧ k = List.zipWith (· - ·) a2 a1

variable {g : GN α δ} {ms : Evaluable α δ} {labels clabels : List String} {m n : Nat} {N : List Nat}

/-- The K of an estimate, series by series. -/
theorem evaluateK_sides (h : g.Setup ms labels clabels m N n) {x : List α} (hx : x.length = N.sum + n + labels.length) {y1 y2 a1 a2 : Nat → List α}
    (hm : ∀ (i k : Nat) pair, ms.mu.idx.Im[i]? = some pair → ms.mu.idx.Nm[i]? = some k →
      g.SideVal ms labels clabels (N.sum + n) n i k pair.1 x (y1 i) (a1 i) ∧ g.SideVal ms labels clabels (N.sum + n) n i k pair.2 x (y2 i) (a2 i))
    {est : Evaluable α δ} {k : List α} (he : (g.estimate x (N.sum + n) ms.mu.idx.Nm.sum).denormalise = .ok est) (hk : evaluateK est (.num 0) = .ok k) :
    k = ((List.range ms.mu.idx.Nm.length).map fun i => List.zipWith (· - ·) (a2 i) (a1 i)).flatten ∧
      ∀ i q, ms.mu.idx.Nm[i]? = some q → (List.zipWith (· - ·) (a2 i) (a1 i)).length = q := by
  have hwf := h.ready.wf
  obtain ⟨est', hest, hidx, hunck, ha, hcst, hsm, hadj, hno, hv⟩ := estimate_ok h hx
  rw [he] at hest; cases hest
  have hp : ∀ i, i < ms.mu.idx.Nm.length → ∃ pair, ms.mu.idx.Im[i]? = some pair := fun i hi =>
    ⟨_, List.getElem?_eq_getElem (by rw [h.ready.pairs]; exact hi)⟩
  have hsel : ∀ n' ∈ List.range' 1 ms.mu.idx.Nm.length, 1 ≤ n' ∧ n' ≤ ms.mu.idx.Nm.length ∧ ∃ k pair, ms.mu.idx.Im[n' - 1]? = some pair ∧
      ms.mu.idx.Nm[n' - 1]? = some k := by
    intro n' hn'
    rw [List.mem_range'_1] at hn'
    obtain ⟨pair, hpair⟩ := hp (n' - 1) (by omega)
    exact ⟨hn'.1, by omega, _, pair, hpair, List.getElem?_eq_getElem (by omega)⟩
  have hone : ∀ n' ∈ List.range' 1 ms.mu.idx.Nm.length, ∀ (s : Nat) (y a : List α), (∀ k, ms.mu.idx.Nm[n' - 1]? = some k →
      g.SideVal ms labels clabels (N.sum + n) n (n' - 1) k s x y a) → (∃ pair, ms.mu.idx.Im[n' - 1]? = some pair ∧ (s = pair.1 ∨ s = pair.2)) →
      y.length = ms.mu.idx.Nm.getD (n' - 1) 0 ∧ a.length = ms.mu.idx.Nm.getD (n' - 1) 0 ∧ (∃ J, sideMeasurand est n' s = .ok (y, J)) ∧
      ∃ B d, est.adjustment_model[s]? = some B ∧ B y = .ok (a, d) := by
    rintro n' hn' s y a hsv ⟨pair, hpair, hs⟩
    obtain ⟨h1, h2, k, _, _, hk⟩ := hsel n' hn'
    obtain ⟨name, q, f, B, J, d, e1, e2, e3, e4, e5, e6, e7, e8, e9⟩ := hsv k hk
    have hkd : ms.mu.idx.Nm.getD (n' - 1) 0 = k := by simp [List.getD, hk]
    have hside := estimate_side h hidx ha hcst hsm hno hv hpair hs e1 e2 e4 e5 hk
    rw [e6, Nat.sub_add_cancel h1] at hside
    exact ⟨by rw [hkd, e8], by rw [hkd, e9], ⟨J, hside⟩, B, d, by rw [hadj]; exact e3, e7⟩
  have hpairs : ∀ n' ∈ List.range' 1 ms.mu.idx.Nm.length, ms.mu.idx.Im[n' - 1]? = some (ms.mu.idx.Im.getD (n' - 1) (0, 0)) := by
    intro n' hn'
    obtain ⟨_, _, _, pair, hpair, _⟩ := hsel n' hn'
    simp [List.getD, hpair]
  have hA : ∀ n' (hn' : n' ∈ List.range' 1 ms.mu.idx.Nm.length), _ := fun n' hn' => hone n' hn' (ms.mu.idx.Im.getD (n' - 1) (0, 0)).1 (y1 (n' - 1)) (a1 (n' - 1))
    (fun k hk => (hm _ k _ (hpairs n' hn') hk).1) ⟨_, hpairs n' hn', .inl rfl⟩
  have hB : ∀ n' (hn' : n' ∈ List.range' 1 ms.mu.idx.Nm.length), _ := fun n' hn' => hone n' hn' (ms.mu.idx.Im.getD (n' - 1) (0, 0)).2 (y2 (n' - 1)) (a2 (n' - 1))
    (fun k hk => (hm _ k _ (hpairs n' hn') hk).2) ⟨_, hpairs n' hn', .inr rfl⟩
  have heval := evaluateAdjusted_ok (ms := est) (arg := .num 0) (sel := List.range' 1 ms.mu.idx.Nm.length) (pairs := fun n' => ms.mu.idx.Im.getD (n' - 1) (0, 0))
    (y1 := fun n' => y1 (n' - 1)) (y2 := fun n' => y2 (n' - 1)) (a1 := fun n' => a1 (n' - 1)) (a2 := fun n' => a2 (n' - 1))
    (by show seriesSet est.mu.idx.n_mu = _; rw [hidx]; exact seriesSet_eq hwf.idx)
    (List.pairwise_lt_range') (fun n' hn' => by rw [hidx]; exact ⟨(hsel n' hn').1, (hsel n' hn').2.1⟩) (fun n' hn' => by rw [hidx]; exact hpairs n' hn')
    (fun n' hn' => by rw [hidx]; exact ⟨(hA n' hn').1, (hB n' hn').1⟩) (fun n' hn' => by rw [hidx]; exact ⟨(hA n' hn').2.1, (hB n' hn').2.1⟩)
    (fun n' hn' => ⟨(hA n' hn').2.2.1, (hB n' hn').2.2.1⟩) (fun n' hn' => ⟨(hA n' hn').2.2.2, (hB n' hn').2.2.2⟩)
  have hl1 : ∀ i, i < ms.mu.idx.Nm.length → (a1 i).length = ms.mu.idx.Nm.getD i 0 ∧ (a2 i).length = ms.mu.idx.Nm.getD i 0 := by
    intro i hi
    have hr : i + 1 ∈ List.range' 1 ms.mu.idx.Nm.length := by rw [List.mem_range'_1]; omega
    exact ⟨(hA (i + 1) hr).2.1, (hB (i + 1) hr).2.1⟩
  have hconv : ∀ a : Nat → List α, ((List.range' 1 ms.mu.idx.Nm.length).map fun n' => a (n' - 1)) = (List.range ms.mu.idx.Nm.length).map a := by
    intro a
    apply List.ext_getElem
    · simp
    · intro i h1 h2
      simp
  rw [hconv, hconv] at heval
  have hzip : ∀ L : List Nat, (∀ i ∈ L, (a2 i).length = (a1 i).length) →
      (L.map a2).flatten.length = (L.map a1).flatten.length ∧
      List.zipWith (· - ·) (L.map a2).flatten (L.map a1).flatten = (L.map fun i => List.zipWith (· - ·) (a2 i) (a1 i)).flatten := by
    intro L
    induction L with
    | nil => intro _; simp
    | cons i L ih =>
      intro hL
      obtain ⟨i1, i2⟩ := ih fun j hj => hL j (by simp [hj])
      have := hL i (by simp)
      simp only [List.map_cons, List.flatten_cons, List.length_append]
      refine ⟨by omega, ?_⟩
      rw [List.zipWith_append this, i2]
  obtain ⟨z1, z2⟩ := hzip (List.range ms.mu.idx.Nm.length) fun i hi => by
    have := hl1 i (List.mem_range.1 hi)
    omega
  unfold evaluateK at hk
  rw [heval] at hk
  obtain ⟨_, e, hk⟩ := bind_ok.1 hk; cases e
  rw [npZip_eq z1] at hk
  refine ⟨by rw [← Except.ok.inj hk]; exact z2, fun i q hq => ?_⟩
  have hi := (List.getElem?_eq_some_iff.1 hq).1
  obtain ⟨q1, q2⟩ := hl1 i hi
  have : ms.mu.idx.Nm.getD i 0 = q := by simp [List.getD, hq]
  rw [List.length_zipWith]
  omega
end

section
variable [DecidableEq α] {env : ReadEnv α δ} {ds ds' : List (Dataset α)} {g : GN α δ} {ms : Evaluable α δ} {labels clabels : List String} {m n : Nat} {N : List Nat}

/-- The K of an estimate, file by file. -/
theorem estimate_files (hc : ConsistentFiles ds) {sd : SensorData α (SensorModel α δ) (AdjModel α)} (ho : openMatchUpWith env defaultAdjustment ds sd = .ok ms)
    (h : g.Setup ms labels clabels m N n) {x : List α} (hx : x.length = N.sum + n + labels.length)
    {est : Evaluable α δ} {k : List α} (he : (g.estimate x (N.sum + n) ms.mu.idx.Nm.sum).denormalise = .ok est) (hk : evaluateK est (.num 0) = .ok k) :
    ∃ kk : Nat → List α, k = ((List.range ds.length).map kk).flatten ∧ ∀ i d, ds[i]? = some d → (kk i).length = d.M ∧
      FileK sd labels clabels (x.drop (N.sum + n)) ms.constant ms.mu ds est.mu.values i d (kk i) := by
  have hN : ms.mu.idx.Im.length = ms.mu.idx.Nm.length := h.ready.pairs
  have key : ∀ i, ∃ (y1 a1 y2 a2 : List α), ∀ (k : Nat) pair, ms.mu.idx.Im[i]? = some pair → ms.mu.idx.Nm[i]? = some k →
      g.SideVal ms labels clabels (N.sum + n) n i k pair.1 x y1 a1 ∧ g.SideVal ms labels clabels (N.sum + n) n i k pair.2 x y2 a2 := by
    intro i
    by_cases hi : i < ms.mu.idx.Nm.length
    · have hp := List.getElem?_eq_getElem (l := ms.mu.idx.Im) (i := i) (by omega)
      have hk := List.getElem?_eq_getElem (l := ms.mu.idx.Nm) (i := i) hi
      obtain ⟨s1, s2⟩ := h.ready.sides i _ hp
      obtain ⟨y1, a1, v1⟩ := sideVal_total h hx (k := ms.mu.idx.Nm[i]) s1
      obtain ⟨y2, a2, v2⟩ := sideVal_total h hx (k := ms.mu.idx.Nm[i]) s2
      refine ⟨y1, a1, y2, a2, ?_⟩
      intro k pair hp' hk'
      rw [hp] at hp'; cases hp'
      rw [hk] at hk'; cases hk'
      exact ⟨v1, v2⟩
    · exact ⟨[], [], [], [], fun k pair _ hk' => absurd (List.getElem?_eq_some_iff.1 hk').1 hi⟩
  choose y1 a1 y2 a2 hall using key
  obtain ⟨z1, z2⟩ := evaluateK_sides h hx hall he hk
  obtain ⟨est', hest, hidx, hunck, ha, hcst, hsm, hadj, hno, hv⟩ := estimate_ok h hx
  rw [he] at hest; cases hest
  obtain ⟨mu, e, hmu, hex, rfl⟩ := openMatchUpWith_inv ho
  obtain ⟨xx, mx, hi, _, b1, b2, b3, b4, b5, _⟩ := opened_tables hmu
  have hNm : mu.idx.Nm = ds.map (·.M) := by rw [b5]; exact hi.Nm
  refine ⟨fun i => List.zipWith (· - ·) (a2 i) (a1 i), z1.trans ?_, ?_⟩
  · have : mu.idx.Nm.length = ds.length := by rw [hNm, List.length_map]
    show (List.map _ (List.range mu.idx.Nm.length)).flatten = _
    rw [this]
  intro i d hd
  have hNi : mu.idx.Nm[i]? = some d.M := by rw [hNm, List.getElem?_map, hd]; rfl
  have hIm : mu.idx.Im[i]? = some (mu.idx.sensors.idxOf d.s1.name, mu.idx.sensors.idxOf d.s2.name) := by rw [b4, hi.Im, List.getElem?_map, hd, b1]; rfl
  refine ⟨z2 i d.M hNi, ?_⟩
  obtain ⟨v1, v2⟩ := hall i d.M _ hIm hNi
  have side : ∀ (s : Side α) (y a : List α), d.HasSide s → g.SideVal
      (⟨{ mu with idx := mu.idx.withSensorData e, original_idx := mu.idx.withSensorData e }, e.a, e.constant, e.sensor_model, e.adjustment_model⟩ : Evaluable α δ)
      labels clabels (N.sum + n) n i d.M (mu.idx.sensors.idxOf s.name) x y a → ∃ X, mu.Cols ds est.mu.values i d s X ∧
        SideK sd labels clabels (x.drop (N.sum + n)) e.constant s.name X a := by
    rintro s y a hs ⟨name, q, f, B, J, dd, e1, e2, e3, e4, e5, e6, e7, e8, e9⟩
    have hlook : mu.idx.sensors[mu.idx.sensors.idxOf s.name]? = some s.name := by
      rw [b1]; exact hi.sens_lookup (mem_sides.2 ⟨d, List.mem_of_getElem? hd, hs⟩)
    have e1' : mu.idx.sensors[mu.idx.sensors.idxOf s.name]? = some name := e1
    rw [hlook] at e1'; cases e1'
    have e5' : mu.idx.covNumbers (mu.idx.sensors.idxOf s.name) (i + 1) = (List.range q).map (· + 1) := e5
    have hmem : ∀ c, c < q ↔ c < s.m := by
      intro c
      constructor
      · intro hcq
        obtain ⟨_, hb⟩ := blkOf_get e5' hcq
        rw [b2, b1] at hb
        obtain ⟨_, _, d', s', hd', hs', hn', hcm⟩ := (hi.mem_blocks hc).1 (List.mem_of_getElem? hb)
        rw [Nat.add_sub_cancel] at hd'
        rw [hd] at hd'; cases hd'
        have l1 := hi.sens_lookup (mem_sides.2 ⟨d, List.mem_of_getElem? hd, hs⟩)
        have l2 := hi.sens_lookup (mem_sides.2 ⟨d, List.mem_of_getElem? hd, hs'⟩)
        rw [hn'] at l1
        rw [l1] at l2
        have := HasSide.unique (hc.1 d (List.mem_of_getElem? hd)) hs hs' (Option.some.inj l2)
        subst this
        omega
      · intro hcm
        have hb : (mu.idx.sensors.idxOf s.name, i + 1, c + 1) ∈ mu.idx.blocks := by
          rw [b2, b1]
          exact (hi.mem_blocks hc).2 ⟨by omega, by omega, d, s, hd, hs, rfl, by omega⟩
        have : c + 1 ∈ mu.idx.covNumbers (mu.idx.sensors.idxOf s.name) (i + 1) := by
          unfold Idx.covNumbers
          exact List.mem_map.2 ⟨_, List.mem_filter.2 ⟨hb, by simp⟩, rfl⟩
        rw [e5'] at this
        obtain ⟨c', hc', hcc⟩ := List.mem_map.1 this
        have := List.mem_range.1 hc'
        omega
    have hq : q = s.m := by
      rcases Nat.lt_trichotomy q s.m with hlt | heq | hlt
      · exact absurd ((hmem q).2 hlt) (by omega)
      · exact heq
      · exact absurd ((hmem s.m).1 hlt) (by omega)
    subst hq
    obtain ⟨f', B', hmod, g1, g2⟩ := extract_models hex hlook
    have e2' : e.sensor_model[mu.idx.sensors.idxOf s.name]? = some f := e2
    have e3' : e.adjustment_model[mu.idx.sensors.idxOf s.name]? = some B := e3
    rw [e2'] at g1; cases g1
    rw [e3'] at g2; cases g2
    refine ⟨_, ⟨colsAt_length .., ?_⟩, f, B, y, J, dd, hmod, e6, e7⟩
    intro c b hb
    have hcm := hb.2.2.1
    have hbb : blkOf mu.idx (mu.idx.sensors.idxOf s.name) (i + 1) c = b := by
      obtain ⟨hp1, hb2⟩ := blkOf_get e5' hcm
      have hb3 := hb.place hmu
      rw [b2] at hb2 hb3
      exact (List.getElem?_inj (List.getElem?_eq_some_iff.1 hb2).1 (hi.nodup hc)).1 (hb2.trans hb3.symm)
    have hcol : (g.colsAt (N.sum + n) n d.M s.m (blkOf mu.idx (mu.idx.sensors.idxOf s.name) (i + 1)) x)[c]? = some (vector d.M (g.colAt (N.sum + n) n d.M b x)) := by
      unfold GN.colsAt
      rw [List.getElem?_map, List.getElem?_range hcm]
      simp only [Option.map_some, hbb]
    refine hcol.trans ?_
    have hsz := hb.size hmu
    have hvb := hv b d.M hsz
    congr 1
    unfold vector
    apply List.map_congr_left
    intro r hr
    exact (elem_of_slice hvb (List.mem_range.1 hr)).symm
  obtain ⟨X1, hX1, hK1⟩ := side d.s1 _ _ (.inl rfl) v1
  obtain ⟨X2, hX2, hK2⟩ := side d.s2 _ _ (.inr rfl) v2
  exact ⟨X1, X2, a1 i, a2 i, hX1, hX2, hK1, hK2, rfl⟩
end

section
theorem zip_flatten (f : α → α → α) (A B : Nat → List α) : ∀ L : List Nat, (∀ i ∈ L, (A i).length = (B i).length) →
    List.zipWith f (L.map A).flatten (L.map B).flatten = (L.map fun i => List.zipWith f (A i) (B i)).flatten := by
  intro L
  induction L with
  | nil => intro _; simp
  | cons i L ih =>
    intro hL
    simp only [List.map_cons, List.flatten_cons]
    rw [List.zipWith_append (hL i (by simp)), ih fun j hj => hL j (by simp [hj])]

theorem dotp_flatten (A : Nat → List α) (k : Nat) : dotp ((List.range k).map A).flatten ((List.range k).map A).flatten = ∑ i ∈ Finset.range k, dotp (A i) (A i) := by
  induction k with
  | zero => simp [dotp]
  | succ k ih =>
    rw [List.range_succ, List.map_append, List.flatten_append, dotp_append rfl, ih, Finset.sum_range_succ]
    simp

theorem map_range_get {β γ : Type} {l : List β} {f : β → γ} {A : Nat → γ} (h : ∀ i d, l[i]? = some d → A i = f d) : l.map f = (List.range l.length).map A := by
  apply List.ext_getElem
  · simp
  · intro i h1 h2
    simp only [List.length_map] at h1
    simp only [List.getElem_map, List.getElem_range]
    exact (h i _ (List.getElem?_eq_getElem h1)).symm
end

section
variable [DecidableEq α] {env : ReadEnv α δ} {ds ds' : List (Dataset α)} {mu : MatchUp α δ}

/-- The K objective, file by file. -/
theorem kObjective_files (hmu : openMatchUp env ds = .ok mu) {kk : Nat → List α} (hl : ∀ i d, ds[i]? = some d → (kk i).length = d.M) :
    ∃ T : Dataset α → List α → α, (∀ d k, T d k = dotp (List.zipWith (· / ·) (List.zipWith (· - ·) k (vector d.M d.K)) (vector d.M fun r => env.rss (d.Kr r) (d.Ks r)))
        (List.zipWith (· / ·) (List.zipWith (· - ·) k (vector d.M d.K)) (vector d.M fun r => env.rss (d.Kr r) (d.Ks r)))) ∧
      ∀ F : Nat → α, (∀ i d, ds[i]? = some d → F i = T d (kk i)) →
      mu.kObjective (List.zipWith (· - ·) ((List.range ds.length).map kk).flatten mu.ks) = ∑ i ∈ Finset.range ds.length, F i := by
  refine ⟨_, fun d k => rfl, ?_⟩
  intro F hF
  obtain ⟨x, mx, hx, hf⟩ := getIdx_facts (openMatchUp_nonempty hmu)
  obtain ⟨x', hx', _, hk, _, _, _, _, _, _, _, huk, _, hidx, _⟩ := openMatchUp_inv hmu
  rw [hx] at hx'; cases hx'
  have hks : mu.ks = (ds.map fun d => vector d.M d.K).flatten := by
    unfold openKs at hk
    obtain ⟨c, hc1, hk⟩ := bind_ok.1 hk
    have hcs : c = (ds.map (·.M)).sum := by
      rw [hf.cNm_last] at hc1
      exact (Except.ok.inj hc1).symm
    rw [hcs, series_ok hf 0 (fun d => vector d.M d.K) (by simp)] at hk
    exact (Except.ok.inj hk).symm
  obtain ⟨A, hA⟩ : ∃ A : Nat → List α, ∀ i d, ds[i]? = some d → A i = vector d.M d.K := ⟨fun i => (ds[i]?.map fun d => vector d.M d.K).getD [], fun i d hd => by simp [hd]⟩
  obtain ⟨U, hU⟩ : ∃ U : Nat → List α, ∀ i d, ds[i]? = some d → U i = vector d.M (fun r => env.rss (d.Kr r) (d.Ks r)) :=
    ⟨fun i => (ds[i]?.map fun d => vector d.M (fun r => env.rss (d.Kr r) (d.Ks r))).getD [], fun i d hd => by simp [hd]⟩
  have hu : mu.unck = (List.range ds.length).map U := by
    rw [huk]
    exact map_range_get hU
  rw [map_range_get hA] at hks
  have hget : ∀ i ∈ List.range ds.length, ∃ d, ds[i]? = some d := fun i hi => ⟨_, List.getElem?_eq_getElem (List.mem_range.1 hi)⟩
  unfold MatchUp.kObjective
  rw [hks, hu, zip_flatten, zip_flatten, dotp_flatten]
  · refine sum_congr rfl fun i hi => ?_
    obtain ⟨d, hd⟩ := hget i (List.mem_range.2 (Finset.mem_range.1 hi))
    rw [hF i d hd, hA i d hd, hU i d hd]
  · intro i hi
    obtain ⟨d, hd⟩ := hget i hi
    rw [hA i d hd, hU i d hd, List.length_zipWith, hl i d hd]
    simp
  · intro i hi
    obtain ⟨d, hd⟩ := hget i hi
    rw [hA i d hd, hl i d hd]
    simp
end
end Verif
