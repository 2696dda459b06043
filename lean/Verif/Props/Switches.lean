import Verif.Model.Switches
import Verif.Props.ReaderTotal
import Verif.Props.Measurand
/-
Property C74: the switches of the reader leave everything else unchanged.
-/
set_option autoImplicit false
namespace Verif
variable {α δ : Type}

/-! ### Specification -/

/-- Two files with the same measured data: sensors, covariates, K, times and other variables.  The uncertainties (of any type), the uncertainties of K, and
the W and u matrices may be anything. -/
def SameMeasurements (d e : Dataset α) : Prop :=
  d.M = e.M ∧ d.K = e.K ∧ d.time1 = e.time1 ∧ d.time2 = e.time2 ∧ d.vars = e.vars ∧
  d.s1.name = e.s1.name ∧ d.s1.m = e.s1.m ∧ d.s1.X = e.s1.X ∧ d.s2.name = e.s2.name ∧ d.s2.m = e.s2.m ∧ d.s2.X = e.s2.X

/-- What remains of an opened match-up without its uncertainties. -/
def MatchUp.forgetUnc (mu : MatchUp α δ) : MatchUp α δ := { mu with unck := [], unc := [], w_matrices := [], u_matrices := [] }

/-- What remains of an opened match-up without its additional values. -/
def MatchUp.forgetAdditional (mu : MatchUp α δ) : MatchUp α δ :=
  { mu with additional_values := none, idx := { mu.idx with additional_values_name := none }
            original_idx := { mu.original_idx with additional_values_name := none } }

/-! ### Proofs -/

/-- The file with every uncertainty declared random. -/
def Side.plainUnc [Zero α] (s : Side α) : Side α :=
  { s with Ur := fun _ _ => 0, Us := fun _ _ => 0, utype := fun _ => 1, wUse := fun _ => 0, uUse := fun _ => 0 }
def Dataset.plainUnc [Zero α] (d : Dataset α) : Dataset α :=
  { d with s1 := d.s1.plainUnc, s2 := d.s2.plainUnc, Kr := fun _ => 0, Ks := fun _ => 0, hasUse := false, wNnz := [], wVal := [], wCol := [], wRow := []
           uCount := [], uVal := [] }

section
variable [Zero α] [DecidableEq α]

omit [DecidableEq α] in
theorem SameMeasurements.plain {d e : Dataset α} (h : SameMeasurements d e) : d.plainUnc = e.plainUnc := by
  obtain ⟨M, ⟨n1, m1, X1, _, _, _, _, _⟩, ⟨n2, m2, X2, _, _, _, _, _⟩, K, _, _, t1, t2, _, v, _, _, _, _, _, _⟩ := d
  obtain ⟨M', ⟨n1', m1', X1', _, _, _, _, _⟩, ⟨n2', m2', X2', _, _, _, _, _⟩, K', _, _, t1', t2', _, v', _, _, _, _, _, _⟩ := e
  simp only [SameMeasurements] at h
  obtain ⟨rfl, rfl, rfl, rfl, rfl, rfl, rfl, rfl, rfl, rfl, rfl⟩ := h
  rfl

omit [DecidableEq α] in
theorem getIdx_plain (ds : List (Dataset α)) : getIdx (ds.map Dataset.plainUnc) = getIdx ds := by
  have h1 : getSensors (ds.map Dataset.plainUnc) = getSensors ds := by
    unfold getSensors
    rw [List.flatMap_map]
    have : ∀ (l : List (Dataset α)) (st : List String × List Nat),
        (l.flatMap fun a => a.plainUnc.sides).foldl sensorStep st = (l.flatMap Dataset.sides).foldl sensorStep st := by
      intro l
      induction l with
      | nil => intro st; rfl
      | cons d l ih =>
        intro st
        rw [List.flatMap_cons, List.flatMap_cons, List.foldl_append, List.foldl_append, ih]
        rfl
    exact this ds _
  have h2 : ∀ sensors, getIm (ds.map Dataset.plainUnc) sensors = getIm ds sensors := by
    intro sensors
    unfold getIm
    rw [List.mapM_map]
    rfl
  unfold getIdx
  rw [h1]
  simp only [h2]
  simp only [getNm, getCNm, List.map_map]
  rfl

omit [DecidableEq α] in
theorem openValues_plain (ds : List (Dataset α)) (x : Idx) : openValues (ds.map Dataset.plainUnc) x = openValues ds x := by
  unfold openValues
  have : valueJobs (ds.map Dataset.plainUnc) x = valueJobs ds x := by
    unfold valueJobs
    rw [List.zip_map_left, List.zipIdx_map, List.flatMap_map]
    rfl
  rw [this]

omit [Zero α] [DecidableEq α] in
theorem openOptionalIndex_map [Zero α] (f : Dataset α → Dataset α) (hv : ∀ d : Dataset α, (f d).vars = d.vars) (hM : ∀ d : Dataset α, (f d).M = d.M)
    (nan : α) (toInt : α → α) (name : String) (ds : List (Dataset α)) (x : Idx) :
    openOptionalIndex nan toInt name (ds.map f) x = openOptionalIndex nan toInt name ds x := by
  have hvar : ∀ d : Dataset α, (f d).var? name = d.var? name := fun d => by unfold Dataset.var?; rw [hv]
  unfold openOptionalIndex
  rw [List.any_map, List.map_map]
  simp only [Function.comp_def, hvar, hM]

theorem openAdditional_map (f : Dataset α → Dataset α) (hv : ∀ d : Dataset α, (f d).vars = d.vars) (hM : ∀ d : Dataset α, (f d).M = d.M)
    (nan fill : α) (names : List String) (ds : List (Dataset α)) (x : Idx) :
    openAdditional nan fill names (ds.map f) x = openAdditional nan fill names ds x := by
  unfold openAdditional
  congr 1
  funext name
  have hvar : ∀ d : Dataset α, (f d).var? name = d.var? name := fun d => by unfold Dataset.var?; rw [hv]
  unfold openAdditionalColumn
  rw [List.map_map]
  simp only [Function.comp_def, hvar, hM]

theorem openMatchUpIf_plain (env : ReadEnv α δ) (ds : List (Dataset α)) (onAdd : Bool) :
    openMatchUpIf env (ds.map Dataset.plainUnc) false onAdd = openMatchUpIf env ds false onAdd := by
  have hv : ∀ d : Dataset α, d.plainUnc.vars = d.vars := fun d => rfl
  have hM : ∀ d : Dataset α, d.plainUnc.M = d.M := fun d => rfl
  have hk : ∀ x, openKs (ds.map Dataset.plainUnc) x = openKs ds x := by
    intro x; unfold openKs; rw [List.map_map]; rfl
  have ht1 : ∀ x, openTime env.dateZero env.toDate Dataset.time1 (ds.map Dataset.plainUnc) x = openTime env.dateZero env.toDate Dataset.time1 ds x := by
    intro x; unfold openTime; rw [List.map_map]; rfl
  have ht2 : ∀ x, openTime env.dateZero env.toDate Dataset.time2 (ds.map Dataset.plainUnc) x = openTime env.dateZero env.toDate Dataset.time2 ds x := by
    intro x; unfold openTime; rw [List.map_map]; rfl
  have ha : ∀ x, openAdditionalIf onAdd env (ds.map Dataset.plainUnc) x = openAdditionalIf onAdd env ds x := by
    intro x
    have hn : additionalNames env.enumStr (ds.map Dataset.plainUnc) = additionalNames env.enumStr ds := by
      unfold additionalNames
      rw [List.flatMap_map]
      rfl
    unfold openAdditionalIf
    rw [hn, openAdditional_map _ hv hM]
  unfold openMatchUpIf
  simp only [getIdx_plain, openValues_plain, hk, ht1, ht2, openOptionalIndex_map _ hv hM, ha, openUncIf, Bool.false_eq_true, if_false]

/-- **C74.** With both switches on (the default) the reader is the one of C01-C10. -/
theorem C74_default (env : ReadEnv α δ) (ds : List (Dataset α)) : openMatchUpIf env ds true true = openMatchUp env ds := by
  unfold openMatchUpIf openMatchUp openUncIf openAdditionalIf
  simp only [if_true, bind_assoc, pure_bind]

/-- **C74.** Whenever a match-up can be opened in full, it can be opened with any setting of the switches, and nothing differs but the parts
switched off. -/
theorem C74_same_data (env : ReadEnv α δ) (ds : List (Dataset α)) (mu : MatchUp α δ) (h : openMatchUp env ds = .ok mu) :
    openMatchUpIf env ds true true = .ok mu ∧
    openMatchUpIf env ds false true = .ok mu.forgetUnc ∧
    openMatchUpIf env ds true false = .ok mu.forgetAdditional ∧
    openMatchUpIf env ds false false = .ok mu.forgetUnc.forgetAdditional := by
  refine ⟨by rw [C74_default, h], ?_⟩
  unfold openMatchUp at h
  obtain ⟨x, hx, h⟩ := bind_ok.1 h
  have hname : x.additional_values_name = none := by
    unfold getIdx at hx
    obtain ⟨_, _, hx⟩ := bind_ok.1 hx
    obtain ⟨_, _, hx⟩ := bind_ok.1 hx
    obtain ⟨_, _, hx⟩ := bind_ok.1 hx
    rw [pure_ok] at hx
    rw [← hx]
  obtain ⟨v, hv, h⟩ := bind_ok.1 h
  obtain ⟨k, hk, h⟩ := bind_ok.1 h
  obtain ⟨t1, ht1, h⟩ := bind_ok.1 h
  obtain ⟨t2, ht2, h⟩ := bind_ok.1 h
  obtain ⟨a1, h1, h⟩ := bind_ok.1 h
  obtain ⟨a2, h2, h⟩ := bind_ok.1 h
  obtain ⟨a3, h3, h⟩ := bind_ok.1 h
  obtain ⟨a4, h4, h⟩ := bind_ok.1 h
  obtain ⟨⟨u, w, us⟩, hu, h⟩ := bind_ok.1 h
  obtain ⟨ad, had, h⟩ := bind_ok.1 h
  rw [pure_ok] at h
  subst h
  have key : ∀ onUnc onAdd, openMatchUpIf env ds onUnc onAdd = .ok
      { idx := (if onAdd then { x with additional_values_name := some (additionalNames env.enumStr ds) } else x)
        original_idx := (if onAdd then { x with additional_values_name := some (additionalNames env.enumStr ds) } else x)
        values := v, ks := k, unck := if onUnc then openUncK env.rss ds else []
        unc := if onUnc then u else [], w_matrices := if onUnc then w else [], u_matrices := if onUnc then us else []
        time1 := some t1, time2 := some t2, across_track_index1 := a1, across_track_index2 := a2, along_track_index1 := a3
        along_track_index2 := a4, additional_values := if onAdd then some ad else none } := by
    intro onUnc onAdd
    unfold openMatchUpIf
    refine bind_ok.2 ⟨x, hx, bind_ok.2 ⟨v, hv, bind_ok.2 ⟨k, hk, bind_ok.2 ⟨t1, ht1, bind_ok.2 ⟨t2, ht2, bind_ok.2 ⟨a1, h1, bind_ok.2 ⟨a2, h2,
      bind_ok.2 ⟨a3, h3, bind_ok.2 ⟨a4, h4, ?_⟩⟩⟩⟩⟩⟩⟩⟩⟩
    cases onUnc <;> cases onAdd <;> simp [openUncIf, openAdditionalIf, hu, had, bind, Except.bind, pure, Except.pure]
  have hx0 : ({ x with additional_values_name := none } : Idx) = x := by rw [← hname]
  refine ⟨?_, ?_, ?_⟩
  · rw [key]; rfl
  · rw [key]
    simp only [MatchUp.forgetAdditional, if_true, Bool.false_eq_true, if_false, hx0]
  · rw [key]
    simp only [MatchUp.forgetAdditional, MatchUp.forgetUnc, Bool.false_eq_true, if_false, hx0]

/-- **C74.** With uncertainties switched off the outcome (also an error) does not depend on any uncertainty or matrix in the files. -/
theorem C74_uncertainties_ignored (env : ReadEnv α δ) (ds es : List (Dataset α)) (h : List.Forall₂ SameMeasurements ds es) (onAdd : Bool) :
    openMatchUpIf env ds false onAdd = openMatchUpIf env es false onAdd := by
  have : ds.map Dataset.plainUnc = es.map Dataset.plainUnc := by
    induction h with
    | nil => rfl
    | cons h _ ih => simp only [List.map_cons, h.plain, ih]
  rw [← openMatchUpIf_plain env ds, this, openMatchUpIf_plain]

omit [DecidableEq α] in
theorem ConsistentFiles.plain {ds : List (Dataset α)} (hc : ConsistentFiles ds) : ConsistentFiles (ds.map Dataset.plainUnc) := by
  refine ⟨?_, ?_⟩
  · intro d hd
    obtain ⟨d', hd', rfl⟩ := List.mem_map.1 hd
    exact hc.1 d' hd'
  · intro d hd e he s hs t ht hst
    obtain ⟨d', hd', rfl⟩ := List.mem_map.1 hd
    obtain ⟨e', he', rfl⟩ := List.mem_map.1 he
    simp only [List.mem_cons, List.not_mem_nil, or_false] at hs ht
    rcases hs with rfl | rfl <;> rcases ht with rfl | rfl
    · exact hc.2 d' hd' e' he' d'.s1 (by simp) e'.s1 (by simp) hst
    · exact hc.2 d' hd' e' he' d'.s1 (by simp) e'.s2 (by simp) hst
    · exact hc.2 d' hd' e' he' d'.s2 (by simp) e'.s1 (by simp) hst
    · exact hc.2 d' hd' e' he' d'.s2 (by simp) e'.s2 (by simp) hst

/-- **C74.** With uncertainties switched off any non-empty list of consistent files opens, whatever its uncertainties, provided that optional variables have
one element per match-up; the result is what the same files with all uncertainties random would give. -/
theorem C74_opens (env : ReadEnv α δ) (he : EnumOk env.enumNat) (he' : EnumOk env.enumStr) {ds : List (Dataset α)} (hne : ds ≠ [])
    (hc : ConsistentFiles ds) (ho : OptionalSized ds) :
    ∃ mu, openMatchUp env (ds.map Dataset.plainUnc) = .ok mu ∧
      openMatchUpIf env ds false true = .ok mu.forgetUnc ∧ openMatchUpIf env ds false false = .ok mu.forgetUnc.forgetAdditional := by
  obtain ⟨mu, hmu⟩ := C67_opens env he he' (ds := ds.map Dataset.plainUnc) (by simpa using hne) hc.plain (by
      intro d hd e he name v hv hn
      obtain ⟨d', hd', rfl⟩ := List.mem_map.1 hd
      obtain ⟨e', he', rfl⟩ := List.mem_map.1 he
      exact ho d' hd' e' he' name v hv hn) (by
      intro d hd s hs c hlt
      obtain ⟨d', hd', rfl⟩ := List.mem_map.1 hd
      refine .inl ?_
      rcases hs with rfl | rfl <;> rfl)
  obtain ⟨_, h1, _, h2⟩ := C74_same_data env _ mu hmu
  exact ⟨mu, hmu, by rw [← openMatchUpIf_plain]; exact h1, by rw [← openMatchUpIf_plain]; exact h2⟩

end

/-- **C74.** The evaluated measurands, adjusted measurands and K do not depend on the switches. -/
theorem C74_measurands [Zero α] [DecidableEq α] [Sub α] (env : ReadEnv α δ) (dflt : AdjModel α) (ds : List (Dataset α))
    (sd : SensorData α (SensorModel α δ) (AdjModel α)) (ms : Evaluable α δ) (h : openMatchUpWith env dflt ds sd = .ok ms) (onUnc onAdd : Bool) :
    ∃ ms', openMatchUpWithIf env dflt ds sd onUnc onAdd = .ok ms' ∧ ms'.a = ms.a ∧ ms'.mu.ks = ms.mu.ks ∧
      ∀ arg, evaluateMeasurand ms' arg = evaluateMeasurand ms arg ∧ evaluateAdjusted ms' arg = evaluateAdjusted ms arg ∧
        evaluateK ms' arg = evaluateK ms arg := by
  obtain ⟨mu, e, hmu, he, rfl⟩ := openMatchUpWith_inv h
  obtain ⟨h11, h01, h10, h00⟩ := C74_same_data env ds mu hmu
  unfold openMatchUpWithIf
  cases onUnc <;> cases onAdd
  · rw [h00]
    exact ⟨_, bind_ok.2 ⟨_, rfl, bind_ok.2 ⟨e, he, rfl⟩⟩, rfl, rfl, fun arg => ⟨rfl, rfl, rfl⟩⟩
  · rw [h01]
    exact ⟨_, bind_ok.2 ⟨_, rfl, bind_ok.2 ⟨e, he, rfl⟩⟩, rfl, rfl, fun arg => ⟨rfl, rfl, rfl⟩⟩
  · rw [h10]
    exact ⟨_, bind_ok.2 ⟨_, rfl, bind_ok.2 ⟨e, he, rfl⟩⟩, rfl, rfl, fun arg => ⟨rfl, rfl, rfl⟩⟩
  · rw [h11]
    exact ⟨_, bind_ok.2 ⟨_, rfl, bind_ok.2 ⟨e, he, rfl⟩⟩, rfl, rfl, fun arg => ⟨rfl, rfl, rfl⟩⟩

/-! ### A concrete case: files whose W matrix is missing -/
namespace Fixture

/-- The example files, with the first covariate of the second sensor declared to have a structured uncertainty whose W matrix is not in the file. -/
def damaged : List (Dataset Int) := files.map fun d => { d with s2 := { d.s2 with utype := fun _ => 3, wUse := fun _ => 7, uUse := fun _ => 7 }, hasUse := true }

end Fixture

/-- **C74, a case.** These files cannot be opened in full; without uncertainties they give the data of the undamaged files. -/
theorem C74_case : openMatchUp Fixture.env Fixture.damaged = .error .indexError ∧
    (∃ mu, openMatchUp Fixture.env Fixture.files = .ok mu ∧ openMatchUpIf Fixture.env Fixture.damaged false true = .ok mu.forgetUnc ∧ mu.values ≠ []) ∧
    List.Forall₂ SameMeasurements Fixture.damaged Fixture.files := by
  have hs : List.Forall₂ SameMeasurements Fixture.damaged Fixture.files := by
    unfold Fixture.damaged
    rw [List.forall₂_map_left_iff]
    exact List.forall₂_same.2 fun d _ => ⟨rfl, rfl, rfl, rfl, rfl, rfl, rfl, rfl, rfl, rfl, rfl⟩
  refine ⟨rfl, ?_, hs⟩
  obtain ⟨mu, hmu, hv⟩ : ∃ mu : MatchUp Int Int, openMatchUp Fixture.env Fixture.files = .ok mu ∧ mu.values ≠ [] := ⟨_, rfl, by decide⟩
  refine ⟨mu, hmu, ?_, hv⟩
  rw [C74_uncertainties_ignored _ _ _ hs]
  exact (C74_same_data _ _ mu hmu).2.1

end Verif
