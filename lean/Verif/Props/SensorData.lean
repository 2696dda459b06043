import Verif.Model.SensorData
import Verif.Lemmas.ReaderOpen
import Verif.Props.Reader
/-
Property C12 (sensor data extraction) and C14 (extremes over all series).
-/
set_option autoImplicit false
namespace Verif
variable {α δ ρ σ : Type}

/-- The entries of `l` labelled `s`. -/
def selectBy (l : List α) (labels : List String) (s : String) : List α :=
  ((l.zip labels).filter fun p => p.2 == s).map (·.1)

theorem selectBy_append (l l' : List α) (b b' : List String) (s : String) (h : l.length = b.length) :
    selectBy (l ++ l') (b ++ b') s = selectBy l b s ++ selectBy l' b' s := by
  unfold selectBy
  rw [List.zip_append h]; simp

theorem selectBy_const (l : List α) (s t : String) :
    selectBy l (l.map fun _ => s) t = if s = t then l else [] := by
  unfold selectBy
  induction l with
  | nil => simp
  | cons a l ih =>
    simp only [List.map_cons, List.zip_cons_cons, List.filter_cons]
    by_cases hst : s = t
    · simp only [hst, beq_self_eq_true, if_true, List.map_cons] at ih ⊢
      rw [ih]
    · have : (s == t) = false := by simpa using hst
      simp only [this, if_neg hst] at ih ⊢
      simpa using ih

theorem extract_fold (sensors : List String) (sd : SensorData α ρ σ) (hn : (sd.map (·.1)).Nodup)
    (st : (List α × List String) × (List α × List String))
    (h1 : st.1.1.length = st.1.2.length) (h2 : st.2.1.length = st.2.2.length) :
    let r := sd.foldl (extractStep sensors) st
    r.1.1.length = r.1.2.length ∧ r.2.1.length = r.2.2.length ∧
    (∀ s, s ∈ r.1.2 → s ∈ st.1.2 ∨ s ∈ sensors) ∧ (∀ s, s ∈ r.2.2 → s ∈ st.2.2 ∨ s ∈ sensors) ∧
    ∀ s, selectBy r.1.1 r.1.2 s = selectBy st.1.1 st.1.2 s ++
        (if s ∈ sensors then match sd.find? (fun e => e.1 == s) with
          | some e => e.2.parameter
          | none => [] else []) ∧
      selectBy r.2.1 r.2.2 s = selectBy st.2.1 st.2.2 s ++
        (if s ∈ sensors then match sd.find? (fun e => e.1 == s) with
          | some e => e.2.constant
          | none => [] else []) := by
  induction sd generalizing st with
  | nil => simp [h1, h2]; exact ⟨fun s hs => .inl hs, fun s hs => .inl hs⟩
  | cons e sd ih =>
    simp only [List.map_cons, List.nodup_cons] at hn
    simp only [List.foldl_cons]
    by_cases he : e.1 ∈ sensors
    · obtain ⟨k1, k2, k3, k4, k5⟩ := ih hn.2 (extractStep sensors st e) (by simp [extractStep, he, h1])
        (by simp [extractStep, he, h2])
      refine ⟨k1, k2, ?_, ?_, ?_⟩
      · intro s hs
        rcases k3 s hs with h | h
        · simp only [extractStep, he, if_true, List.mem_append, List.mem_map] at h
          rcases h with h | ⟨_, _, rfl⟩
          · exact .inl h
          · exact .inr he
        · exact .inr h
      · intro s hs
        rcases k4 s hs with h | h
        · simp only [extractStep, he, if_true, List.mem_append, List.mem_map] at h
          rcases h with h | ⟨_, _, rfl⟩
          · exact .inl h
          · exact .inr he
        · exact .inr h
      · intro s
        obtain ⟨q1, q2⟩ := k5 s
        rw [q1, q2]
        simp only [extractStep, he, if_true]
        rw [selectBy_append _ _ _ _ _ h1, selectBy_append _ _ _ _ _ h2, selectBy_const, selectBy_const]
        by_cases hes : e.1 = s
        · subst hes
          have hno : sd.find? (fun e' => e'.1 == e.1) = none := by
            rw [List.find?_eq_none]
            intro e' he' heq
            exact hn.1 (List.mem_map.2 ⟨e', he', by simpa using heq⟩)
          simp [hno, he]
        · have : (e.1 == s) = false := by simpa using hes
          simp [this, hes]
    · have hstep : extractStep sensors st e = st := by simp [extractStep, he]
      rw [hstep]
      obtain ⟨k1, k2, k3, k4, k5⟩ := ih hn.2 st h1 h2
      refine ⟨k1, k2, k3, k4, ?_⟩
      intro s
      obtain ⟨q1, q2⟩ := k5 s
      rw [q1, q2]
      by_cases hs : s ∈ sensors
      · have : (e.1 == s) = false := by
          simp only [beq_eq_false_iff_ne]; rintro rfl; exact he hs
        simp [this]
      · simp [hs]

theorem mapM_ok_get {β γ : Type} {f : β → Py γ} : ∀ {l : List β} {r : List γ}, l.mapM f = .ok r →
    r.length = l.length ∧ ∀ (i : Nat) (b : β), l[i]? = some b → ∃ c, f b = .ok c ∧ r[i]? = some c
  | [], r, h => by
    simp [List.mapM_nil, pure, Except.pure] at h
    subst h; simp
  | b :: l, r, h => by
    rw [List.mapM_cons] at h
    obtain ⟨c, hc, h⟩ := bind_ok.1 h
    obtain ⟨cs, hcs, h⟩ := bind_ok.1 h
    rw [pure_ok] at h
    subst h
    obtain ⟨h1, h2⟩ := mapM_ok_get hcs
    refine ⟨by simp [h1], ?_⟩
    intro i b' hb
    cases i with
    | zero => simp at hb; subst hb; exact ⟨c, hc, by simp⟩
    | succ i => simp at hb; simpa using h2 i b' hb

theorem mapM_error {β γ : Type} {f : β → Py γ} : ∀ {l : List β} {e : PyErr}, l.mapM f = .error e →
    ∃ b ∈ l, f b = .error e
  | [], e, h => by simp [List.mapM_nil, pure, Except.pure] at h
  | b :: l, e, h => by
    rw [List.mapM_cons] at h
    cases hb : f b with
    | error e' =>
      rw [hb] at h; simp only [bind, Except.bind] at h
      cases h; exact ⟨b, by simp, hb⟩
    | ok c =>
      rw [hb] at h; simp only [bind, Except.bind] at h
      cases hl : l.mapM f with
      | error e' =>
        rw [hl] at h; cases h
        obtain ⟨b', hb', he'⟩ := mapM_error hl
        exact ⟨b', by simp [hb'], he'⟩
      | ok cs => rw [hl] at h; cases h

theorem mapM_error_of {β γ : Type} {f : β → Py γ} {e : PyErr} (hall : ∀ b e', f b = .error e' → e' = e) :
    ∀ {l : List β} {b : β}, b ∈ l → f b = .error e → l.mapM f = .error e
  | b :: l, b', hb, he => by
    rw [List.mapM_cons]
    cases hf : f b with
    | error e' => rw [hall b e' hf]; rfl
    | ok c =>
      simp only [bind, Except.bind]
      rcases List.mem_cons.1 hb with rfl | hb
      · rw [hf] at he; cases he
      · rw [mapM_error_of hall hb he]

/-- **C12.** For any dictionary of sensor data (distinct keys) and any sensor list, when extraction succeeds: parameters and labels (and
constants and labels) have equal lengths, every label is one of the sensors, selecting by label gives back each sensor's own list,
entries of other sensors contribute nothing, and the models are listed in sensor order. -/
theorem C12_extraction (dflt : σ) (sd : SensorData α ρ σ) (hn : (sd.map (·.1)).Nodup) (sensors : List String)
    (e : Extracted α ρ σ) (h : extractSensorData dflt sd sensors = .ok e) :
    e.a.length = e.a_sensor.length ∧ e.constant.length = e.constant_sensor.length ∧
    (∀ s ∈ e.a_sensor, s ∈ sensors) ∧ (∀ s ∈ e.constant_sensor, s ∈ sensors) ∧
    (∀ s ∈ sensors, ∃ x, (s, x) ∈ sd ∧ selectBy e.a e.a_sensor s = x.parameter ∧
      selectBy e.constant e.constant_sensor s = x.constant) ∧
    e.sensor_model.length = sensors.length ∧
    (∀ (i : Nat) (s : String), sensors[i]? = some s → ∃ x, (s, x) ∈ sd ∧ e.sensor_model[i]? = some x.model) := by
  unfold extractSensorData at h
  obtain ⟨models, hm, h⟩ := bind_ok.1 h
  rw [pure_ok] at h
  subst h
  obtain ⟨k1, k2, k3, k4, k5⟩ := extract_fold sensors sd hn (([], []), ([], [])) rfl rfl
  obtain ⟨m1, m2⟩ := mapM_ok_get hm
  have entry : ∀ s ∈ sensors, ∃ x, sd.find? (fun e => e.1 == s) = some (s, x) := by
    intro s hs
    obtain ⟨i, hi⟩ := List.mem_iff_getElem?.1 hs
    obtain ⟨c, hc, _⟩ := m2 i s hi
    unfold extractModel SensorData.get at hc
    cases hf : sd.find? (fun e => e.1 == s) with
    | none => rw [hf] at hc; simp [bind, Except.bind] at hc
    | some x =>
      have := List.find?_some hf
      simp only [beq_iff_eq] at this
      exact ⟨x.2, by rw [← this]⟩
  refine ⟨k1, k2, ?_, ?_, ?_, by simp [m1], ?_⟩
  · intro s hs; simpa using k3 s hs
  · intro s hs; simpa using k4 s hs
  · intro s hs
    obtain ⟨x, hx⟩ := entry s hs
    obtain ⟨q1, q2⟩ := k5 s
    rw [if_pos hs, hx] at q1 q2
    exact ⟨x, List.mem_of_find?_eq_some hx, by simpa [selectBy] using q1, by simpa [selectBy] using q2⟩
  · intro i s hi
    obtain ⟨x, hx⟩ := entry s (List.mem_of_getElem? hi)
    obtain ⟨c, hc, hr⟩ := m2 i s hi
    refine ⟨x, List.mem_of_find?_eq_some hx, ?_⟩
    rw [List.getElem?_map, hr]
    unfold extractModel SensorData.get at hc
    rw [hx] at hc
    simp only [bind, Except.bind] at hc
    have : c.1 = x.model := by
      split at hc
      · split at hc
        · cases hc; rfl
        · cases hc
      · cases hc; rfl
    simp [this]

/-- **C12, rejection.** Extraction fails exactly when a sensor has no entry, or its entry has the key `adjustment_model` but not the key
`sensor_adjustment_model`; the exception is `KeyError`. -/
theorem C12_rejects (dflt : σ) (sd : SensorData α ρ σ) (hn : (sd.map (·.1)).Nodup) (sensors : List String) :
    extractSensorData dflt sd sensors = .error .keyError ↔
      ∃ s ∈ sensors, (∀ x, (s, x) ∉ sd) ∨
        ∃ x, (s, x) ∈ sd ∧ x.adjustment_model ≠ none ∧ x.sensor_adjustment_model = none := by
  have hmodel : ∀ s e', extractModel dflt sd s = .error e' → e' = .keyError := by
    intro s e' he
    unfold extractModel SensorData.get at he
    cases hf : sd.find? (fun e => e.1 == s) with
    | none => rw [hf] at he; simp [bind, Except.bind] at he; exact he.symm
    | some x =>
      rw [hf] at he
      simp only [bind, Except.bind] at he
      split at he
      · split at he
        · cases he
        · cases he; rfl
      · cases he
  have hiff : ∀ s, extractModel dflt sd s = .error .keyError ↔ ((∀ x, (s, x) ∉ sd) ∨
        ∃ x, (s, x) ∈ sd ∧ x.adjustment_model ≠ none ∧ x.sensor_adjustment_model = none) := by
    intro s
    unfold extractModel SensorData.get
    cases hf : sd.find? (fun e => e.1 == s) with
    | none =>
      simp only [bind, Except.bind, true_iff]
      left
      intro x hx
      rw [List.find?_eq_none] at hf
      exact hf _ hx (by simp)
    | some e =>
      have hs := List.find?_some hf
      simp only [beq_iff_eq] at hs
      have hmem := List.mem_of_find?_eq_some hf
      have huniq : ∀ x, (s, x) ∈ sd → x = e.2 := by
        intro x hx
        have hnd := List.nodup_map_iff_inj_on (l := sd) (f := (·.1)) (List.Nodup.of_map _ hn) |>.1 hn
        have := hnd (s, x) hx e hmem hs.symm
        rw [← this]
      have hes : (s, e.2) ∈ sd := by rw [← hs]; exact hmem
      simp only [bind, Except.bind]
      constructor
      · intro h
        right
        refine ⟨e.2, hes, ?_⟩
        split at h
        · rename_i a ha
          split at h
          · cases h
          · rename_i hn2; exact ⟨by rw [ha]; simp, hn2⟩
        · cases h
      · rintro (h | ⟨x, hx, h1, h2⟩)
        · exact absurd hes (h _)
        · rw [huniq x hx] at h1 h2
          cases ha : e.2.adjustment_model with
          | none => exact absurd ha h1
          | some a => simp [h2]
  unfold extractSensorData
  constructor
  · intro h
    cases hm : sensors.mapM (extractModel dflt sd) with
    | ok m => rw [hm] at h; simp [bind, Except.bind, pure, Except.pure] at h
    | error e =>
      rw [hm] at h
      simp only [bind, Except.bind, Except.error.injEq] at h
      subst h
      obtain ⟨s, hs, he⟩ := mapM_error hm
      exact ⟨s, hs, (hiff s).1 he⟩
  · rintro ⟨s, hs, h⟩
    have := mapM_error_of (f := extractModel dflt sd) hmodel hs ((hiff s).2 h)
    simp only [bind, Except.bind]
    rw [this]

/-- A sensor data dictionary with a sensor that is not in the match-ups. -/
def Fixture.sensorData : SensorData Int Nat Nat :=
  [("B", { parameter := [1, 2], constant := [5], model := 11 }), ("X", { parameter := [9], constant := [], model := 13 }),
   ("A", { parameter := [], constant := [], model := 10 }), ("C", { parameter := [3, 4], constant := [6], model := 12 })]

example : (Fixture.sensorData.map (·.1)).Nodup ∧ ∃ e, extractSensorData 0 Fixture.sensorData ["A", "B", "C"] = .ok e ∧
    e.a = [1, 2, 3, 4] ∧ e.a_sensor = ["B", "B", "C", "C"] ∧ e.sensor_model = [10, 11, 12] :=
  ⟨by decide, _, rfl, by decide, by decide, by decide⟩

/-- The documented key `adjustment_model` alone makes extraction fail although the sensor has an entry. -/
theorem C12_adjustment_key_mismatch :
    extractSensorData 0 [("A", { parameter := [1], constant := ([] : List Int), model := 1, adjustment_model := some 5 })] ["A"]
      = .error .keyError := by rfl

/-! ### C14 -/

/-- **C14 (partial).** With a series number, the maximum of an existing non-empty variable is an upper bound of the file's column and one of
its elements; a variable that no file has gives `None`.  Missing: no series number (see below). -/
theorem C14_max_of_series_partial {α δ : Type} [Zero α] [DecidableEq α] [LinearOrder α] (env : ReadEnv α δ) (ds : List (Dataset α))
    (hc : ConsistentFiles ds) (mu : MatchUp α δ) (h : openMatchUp env ds = .ok mu) (name : String) (series cov : Nat) :
    (∀ col, FileColumn ds name series cov col → col ≠ [] →
      ∃ m, mu.getVariableDataMax cov name (.num series) = .ok (some m) ∧ m ∈ col ∧ ∀ v ∈ col, v ≤ m) ∧
    ((∀ col, ¬ FileColumn ds name series cov col) → mu.getVariableDataMax cov name (.num series) = .ok none) := by
  constructor
  · intro col hcol hne
    unfold MatchUp.getVariableDataMax
    rw [C03_getVariableData env ds hc mu h name series cov col hcol]
    obtain ⟨x, xs, rfl⟩ := List.exists_cons_of_ne_nil hne
    refine ⟨xs.foldl max x, rfl, ?_, ?_⟩
    · have : ∀ (l : List α) (y : α), l.foldl max y ∈ y :: l := by
        intro l
        induction l with
        | nil => intro y; simp
        | cons z l ih =>
          intro y
          simp only [List.foldl_cons]
          rcases List.mem_cons.1 (ih (max y z)) with h | h
          · rw [h]
            rcases le_total y z with hyz | hyz
            · simp [max_eq_right hyz]
            · simp [max_eq_left hyz]
          · simp [h]
      exact this xs x
    · have : ∀ (l : List α) (y : α), ∀ v ∈ y :: l, v ≤ l.foldl max y := by
        intro l
        induction l with
        | nil => intro y v hv; simp at hv; simp [hv]
        | cons z l ih =>
          intro y v hv
          simp only [List.foldl_cons]
          have hm := ih (max y z)
          simp only [List.mem_cons] at hv
          rcases hv with rfl | rfl | hv
          · exact le_trans (le_max_left v z) (hm _ (by simp))
          · exact le_trans (le_max_right y v) (hm _ (by simp))
          · exact hm v (by simp [hv])
      exact this xs x
  · intro hno
    unfold MatchUp.getVariableDataMax
    rw [C03_getVariableData_absent env ds hc mu h name series cov hno]
    rfl

/-- **C14 is false of the code:** for every opened match-up, asking for the maximum without a series number (or with a list of
series) gives `None`, never the maximum. -/
theorem C14_all_series_always_none {α δ : Type} [Zero α] [DecidableEq α] [LinearOrder α] (env : ReadEnv α δ)
    (ds : List (Dataset α)) (hc : ConsistentFiles ds) (mu : MatchUp α δ) (h : openMatchUp env ds = .ok mu)
    (name : String) (cov : Nat) (l : List Nat) :
    mu.getVariableDataMax cov name .none = .ok none ∧ mu.getVariableDataMax cov name (.list l) = .ok none := by
  obtain ⟨x, mx, hx, hf⟩ := getIdx_facts (openMatchUp_nonempty h)
  obtain ⟨x', hx', _, _, _, _, _, _, _, _, _, _, _, hidx, _⟩ := openMatchUp_inv h
  rw [hx] at hx'; cases hx'
  have hnames : mu.idx.nameBlocks = .ok (x.blocks.map fun b => (x.sensors.getD b.1 "", b.2.1, b.2.2)) := by
    rw [hidx]; exact hf.names hc
  unfold MatchUp.getVariableDataMax MatchUp.getVariableData
  rw [hnames]
  constructor <;> rfl

example : ∃ mu, openMatchUp Fixture.env Fixture.files = .ok mu ∧ mu.getVariableDataMax 1 "B" (.num 1) = .ok (some 1002) ∧
    mu.getVariableDataMax 1 "B" .none = .ok none := ⟨_, rfl, by decide, by decide⟩

end Verif
