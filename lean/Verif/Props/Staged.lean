import Verif.Model.Staged
import Verif.Model.GNKrylov
import Verif.Props.HarmoniseRun
import Verif.Props.Switches
import Verif.Props.OpCov
/-
C83: the parameter covariance computed in pieces, from a saved solver.
-/
set_option autoImplicit false
namespace Verif
variable {α δ : Type}

/-- Specification: a linear solver that knows the system only by its operator and its size. -/
def OperatorOnly [Field α] (minres : GN α δ → List α → Py (List α)) : Prop :=
  ∀ (g g' : GN α δ) (b : List α), g'.hd.mu.idx = g.hd.mu.idx → g'.hd.a.length = g.hd.a.length → (∀ x, g'.calcHx x = g.calcHx x) → minres g' b = minres g b

/-- The solver of the code is one. -/
theorem minresObject_operatorOnly [Field α] [LinearOrder α] (o : MinresOpts α) (sqrt : α → Py α) (probes : (n : Nat) → List (Fin n → α)) :
    OperatorOnly (GN.minresObject o sqrt probes : GN α δ → List α → Py (List α)) := by
  intro g g' b h1 h2 h3
  have h3' : g'.calcHx = g.calcHx := funext h3
  unfold GN.minresObject
  rw [h1, h2, h3']

variable [Field α]

theorem prod_original (g : GN α δ) (x : Idx) (t : Bool) (v : List α) :
    GN.prod { g with hd := { g.hd with mu := { g.hd.mu with original_idx := x } } } t v = g.prod t v := rfl

theorem covarianceIJ_congr {minres : GN α δ → List α → Py (List α)} (hop : OperatorOnly minres) {g g' : GN α δ} (h1 : g'.hd.mu.idx = g.hd.mu.idx)
    (h2 : g'.hd.a.length = g.hd.a.length) (h3 : ∀ x, g'.calcHx x = g.calcHx x) (h4 : g'.S = g.S) (i j : Nat) :
    g'.covarianceIJ minres i j = g.covarianceIJ minres i j := by
  have hpx : ∀ t x, g'.calcPx t x = g.calcPx t x := by
    intro t x
    unfold GN.calcPx
    rw [h2, h4, h1]
  unfold GN.covarianceIJ
  simp only [h1, h2, hpx, hop g g' _ h1 h2 h3]

/-- The sensor models of opened match-ups are those of the sensor data. -/
theorem models_of_data [DecidableEq α] {env : ReadEnv α δ} {dflt : AdjModel α} {ds : List (Dataset α)} {sd : SensorData α (SensorModel α δ) (AdjModel α)}
    (hnd : (sd.map (·.1)).Nodup) {ms : Evaluable α δ} (h : openMatchUpWith env dflt ds sd = .ok ms) : ∀ f ∈ ms.sensor_model, ∃ e ∈ sd, f = e.2.model := by
  obtain ⟨mu, e, hmu, he, rfl⟩ := openMatchUpWith_inv h
  intro f hf
  obtain ⟨_, _, _, _, _, hl, hmod⟩ := C12_extraction dflt sd hnd _ e he
  obtain ⟨i, hi⟩ := List.mem_iff_getElem?.1 hf
  have hlt : i < mu.idx.sensors.length := by
    rw [← hl]; exact (List.getElem?_eq_some_iff.1 hi).1
  obtain ⟨x, hx1, hx2⟩ := hmod i _ (List.getElem?_eq_getElem hlt)
  refine ⟨_, hx1, ?_⟩
  have hi' : e.sensor_model[i]? = some f := hi
  rw [hi'] at hx2
  exact Option.some.inj hx2

/-- Match-ups opened without additional values are those opened with them, but for these. -/
theorem openWithout [DecidableEq α] {env : ReadEnv α δ} {dflt : AdjModel α} {ds : List (Dataset α)} {sd : SensorData α (SensorModel α δ) (AdjModel α)}
    {ms : Evaluable α δ} (h : openMatchUpWith env dflt ds sd = .ok ms) :
    ∃ x y, openMatchUpWithIf env dflt ds sd true false = .ok { ms with mu := { ms.mu with idx := x, original_idx := y, additional_values := none } } := by
  obtain ⟨mu, e, hmu, he, rfl⟩ := openMatchUpWith_inv h
  obtain ⟨_, _, h10, _⟩ := C74_same_data env ds mu hmu
  unfold openMatchUpWithIf
  rw [h10]
  exact ⟨_, _, bind_ok.2 ⟨_, rfl, bind_ok.2 ⟨e, he, rfl⟩⟩⟩

/-- **C83 (partial), one element.** An element computed from a saved solver and from match-up files opened afresh, without additional values, is the one the saved solver would
have computed itself (also when that is an error). Missing: sensor models that use the times of the match-ups. -/
theorem C83_element_partial [DecidableEq α] {env : ReadEnv α δ} {dflt : AdjModel α} {o : HarmRoutines α δ} (hop : OperatorOnly o.minres) {ds : List (Dataset α)}
    {sd : SensorData α (SensorModel α δ) (AdjModel α)} {ms : Evaluable α δ} (hms : openMatchUpWith env dflt ds sd = .ok ms) (hm : ∀ f ∈ ms.sensor_model, f.Timeless)
    {g : GN α δ} (hn : MatchUpS.normalise { ms with a := g.hd.a } = .ok g.hd) (ha : g.hd.a.length = ms.a.length) (i j : Nat) :
    (StagedOp.on env dflt ds sd (some g.save)).covarianceIJ o i j = g.covarianceIJ o.minres i j := by
  obtain ⟨x, y, h⟩ := openWithout hms
  set mf : Evaluable α δ := { ms with mu := { ms.mu with idx := x, original_idx := y, additional_values := none } } with hmf
  let S0 : List (List α) := (List.range ms.a.length).map fun i => (List.range ms.a.length).map fun j => if i = j then 1 else 0
  let g0 : GN α δ := { hd := mf, xyza := mf.mu.values ++ mf.a, S := S0 }
  have hre : (StagedOp.on env dflt ds sd (some g.save)).reopen o = .ok (g0.open g.save) :=
    bind_ok.2 ⟨g.save, rfl, bind_ok.2 ⟨mf, bind_ok.2 ⟨ds, rfl, bind_ok.2 ⟨sd, rfl, bind_ok.2 ⟨_, rfl, h⟩⟩⟩, bind_ok.2 ⟨g0, rfl, rfl⟩⟩⟩
  have hst : (StagedOp.on env dflt ds sd (some g.save)).covarianceIJ o i j = (g0.open g.save).covarianceIJ o.minres i j := by
    unfold StagedOp.covarianceIJ
    rw [hre]
    rfl
  rw [hst]
  have hrs := restart_eq hn ms.a (mf.mu.values ++ mf.a) S0
  let g1 : GN α δ := { g with hd := { g.hd with a := ms.a, mu := { g.hd.mu with ks := ms.mu.ks, time1 := ms.mu.time1, time2 := ms.mu.time2, additional_values := none } } }
  have hopen : g0.open g.save = { g1 with hd := { g1.hd with mu := { g1.hd.mu with original_idx := y } } } := by
    have : g0.open g.save = { GN.restart { ms with a := g.hd.a } ms.a g.save (mf.mu.values ++ mf.a) S0 with
        hd := { (GN.restart { ms with a := g.hd.a } ms.a g.save (mf.mu.values ++ mf.a) S0).hd with
          mu := { (GN.restart { ms with a := g.hd.a } ms.a g.save (mf.mu.values ++ mf.a) S0).hd.mu with original_idx := y, additional_values := none } } } := rfl
    rw [this, hrs]
  have hm' : ∀ f ∈ g.hd.sensor_model, f.Timeless := by
    obtain ⟨nm, _, hhd⟩ := normalise_ok hn
    rw [hhd]; exact hm
  have hp : ∀ t v, (g0.open g.save).prod t v = g.prod t v := by
    intro t v
    rw [hopen, prod_original]
    exact prod_irrelevant g ms.a ms.mu.ks ms.mu.time1 ms.mu.time2 none ha.symm hm' t v
  refine covarianceIJ_congr hop (g := g) (g' := g0.open g.save) rfl ha.symm ?_ rfl i j
  intro v
  unfold GN.calcHx
  simp only [hp]

/-- Asking for the covariance changes nothing else in the result of the solver. -/
theorem run_with_covariance [LinearOrder α] {g : GN α δ} {lsmr : LsmrObject α δ} {minres : GN α δ → List α → Py (List α)} {tol : GNTol α} {R : GNResult α}
    (h : g.run lsmr minres tol false = .ok R) :
    g.run lsmr minres tol true = (do let V ← GN.covariance { g with xyza := R.state.xyza } minres; pure { R with covariance := V }) := by
  unfold GN.run at h ⊢
  obtain ⟨N_mu, h1, h⟩ := bind_ok.1 h
  obtain ⟨N_var, h2, h⟩ := bind_ok.1 h
  obtain ⟨r0, h3, h⟩ := bind_ok.1 h
  obtain ⟨st, h4, h⟩ := bind_ok.1 h
  obtain ⟨V, h5, h⟩ := bind_ok.1 h
  obtain ⟨rv, h6, h⟩ := bind_ok.1 h
  obtain ⟨n_uS, h7, h⟩ := bind_ok.1 h
  obtain ⟨sens, h8, h⟩ := bind_ok.1 h
  obtain ⟨cost, h9, h⟩ := bind_ok.1 h
  rw [pure_ok] at h
  subst h
  rw [h1, ok_bind', h2, ok_bind', h3, ok_bind', h4, ok_bind']
  unfold GN.runCovariance
  rw [if_pos rfl]
  refine bind_congr fun V' => ?_
  rw [h6, ok_bind', h7, ok_bind', h8, ok_bind', h9]
  rfl

theorem covariance_iff {g : GN α δ} {minres : GN α δ → List α → Py (List α)} {V : List (List α)} :
    g.covariance minres = .ok V ↔ ∃ v : Nat → Nat → α, (∀ i, i < g.hd.a.length → ∀ j, j < g.hd.a.length → g.covarianceIJ minres i j = .ok (v i j)) ∧
      V = (List.range g.hd.a.length).map fun i => (List.range g.hd.a.length).map fun j => (v i j + v j i) / 2 := by
  have key : ∀ {L : List (List α)}, ((List.range g.hd.a.length).mapM fun i => (List.range g.hd.a.length).mapM fun j => g.covarianceIJ minres i j) = .ok L →
      ∀ i, i < g.hd.a.length → ∀ j, j < g.hd.a.length → g.covarianceIJ minres i j = .ok ((L.getD i []).getD j 0) := by
    intro L hL i hi j hj
    obtain ⟨e1, e2⟩ := mapM_ok_get hL
    obtain ⟨row, r2, r1⟩ := e2 i i (by rw [List.getElem?_range hi])
    obtain ⟨e3, e4⟩ := mapM_ok_get r2
    obtain ⟨w, w2, w1⟩ := e4 j j (by rw [List.getElem?_range hj])
    rw [w2, List.getD_eq_getElem?_getD, List.getD_eq_getElem?_getD, r1, Option.getD_some, w1]
    rfl
  constructor
  · intro h
    unfold GN.covariance at h
    obtain ⟨L, hL, h⟩ := bind_ok.1 h
    rw [pure_ok] at h
    exact ⟨fun i j => (L.getD i []).getD j 0, key hL, h.symm⟩
  · rintro ⟨v, hv, rfl⟩
    have hrow : ∀ i, i < g.hd.a.length → ((List.range g.hd.a.length).mapM fun j => g.covarianceIJ minres i j) = .ok ((List.range g.hd.a.length).map (v i)) := by
      intro i hi
      refine mapM_ok_of ?_
      intro j hj
      exact hv i hi j (List.mem_range.1 hj)
    have hL : ((List.range g.hd.a.length).mapM fun i => (List.range g.hd.a.length).mapM fun j => g.covarianceIJ minres i j) =
        .ok ((List.range g.hd.a.length).map fun i => (List.range g.hd.a.length).map (v i)) := by
      refine mapM_ok_of ?_
      intro i hi
      exact hrow i (List.mem_range.1 hi)
    unfold GN.covariance
    refine bind_ok.2 ⟨_, hL, pure_ok.2 ?_⟩
    refine List.map_congr_left fun i hi => List.map_congr_left fun j hj => ?_
    have h1 := key hL i (List.mem_range.1 hi) j (List.mem_range.1 hj)
    have h2 := key hL j (List.mem_range.1 hj) i (List.mem_range.1 hi)
    rw [hv i (List.mem_range.1 hi) j (List.mem_range.1 hj)] at h1
    rw [hv j (List.mem_range.1 hj) i (List.mem_range.1 hi)] at h2
    rw [← Except.ok.inj h1, ← Except.ok.inj h2]

/-- The files of the elements of the covariance matrix, each computed from the saved solver. -/
def StagedOp.Elements (o : HarmRoutines α δ) (op : StagedOp α δ) (n : Nat) (v : Nat → Nat → α) : Prop :=
  ∀ i, i < n → ∀ j, j < n → op.covarianceIJ o i j = .ok (v i j)

/-- **C83 (partial).** A harmonisation that saved its solver, then each element of the covariance computed from what was saved and from the match-up files: exactly when all
elements can be computed does the harmonisation that computes the covariance itself return; it returns the same result, with these elements (each averaged with the one
opposite) as covariance; and that is what the combination of the files of the elements gives, in whatever order they are found.
Missing: sensor models that use times, and eleven or more parameters. -/
theorem C83_staged_partial [LinearOrder α] {env : ReadEnv α δ} {o : HarmRoutines α δ} (hop : OperatorOnly o.minres) {ds : List (Dataset α)}
    {sd : SensorData α (SensorModel α δ) (AdjModel α)} {ms : Evaluable α δ} (hms : openMatchUpWith env defaultAdjustment ds sd = .ok ms)
    (hm : ∀ f ∈ ms.sensor_model, f.Timeless) {pc : Option (Dir α × List (List Char))} {sp : Option (Dir α × List Char)}
    (hpc : ∀ a V, ms.preconditioner o pc sp = .ok (a, V) → a.length = ms.a.length) {r : HarmResult α} {sv : Option (GNSaved α)}
    (hr : harmoniseEIV o ms pc sp none true = .ok (r, sv)) :
    ∃ f, sv = some f ∧
      (∀ q, harmoniseEIV o ms pc sp none false = .ok q ↔ ∃ v, (StagedOp.on env defaultAdjustment ds sd (some f)).Elements o ms.a.length v ∧
        q = ({ r with covariance := some ((List.range ms.a.length).map fun i => (List.range ms.a.length).map fun j => (v i j + v j i) / 2) }, none)) ∧
      (ms.a.length ≤ 10 → ∀ q v, harmoniseEIV o ms pc sp none false = .ok q → (StagedOp.on env defaultAdjustment ds sd (some f)).Elements o ms.a.length v →
        ∀ (dir : List Char) (files : List (List Char × α)), files.Perm (elementFiles dir ms.a.length v) →
          ∃ V, combineCovariance files = .ok V ∧ q.1.covariance = some V) := by
  unfold harmoniseEIV at hr ⊢
  obtain ⟨⟨a, V⟩, e1, hr⟩ := bind_ok.1 hr
  obtain ⟨g, e2, hr⟩ := bind_ok.1 hr
  obtain ⟨sensors, e3, hr⟩ := bind_ok.1 hr
  obtain ⟨R, e4, hr⟩ := bind_ok.1 hr
  rw [pure_ok, Prod.mk.injEq] at hr
  obtain ⟨hr1, hr2⟩ := hr
  have ha := hpc a V e1
  simp only [Bool.not_true, if_true] at e4 hr2
  have hgn : MatchUpS.normalise { ms with a := a } = .ok g.hd ∧ g.hd.a = a := by
    unfold Evaluable.solver at e2
    obtain ⟨hd, h1, h2⟩ := bind_ok.1 e2
    obtain ⟨S, _, h4⟩ := bind_ok.1 h2
    rw [pure_ok] at h4
    subst h4
    refine ⟨h1, ?_⟩
    obtain ⟨nm, _, hhd⟩ := normalise_ok h1
    rw [hhd]
  obtain ⟨hnorm, hga⟩ := hgn
  let gf : GN α δ := { g with xyza := R.state.xyza }
  have hgl : gf.hd.a.length = ms.a.length := by show g.hd.a.length = _; rw [hga, ha]
  have hel : ∀ i j, (StagedOp.on env defaultAdjustment ds sd (some gf.save)).covarianceIJ o i j = gf.covarianceIJ o.minres i j := by
    intro i j
    refine C83_element_partial hop hms hm (g := gf) ?_ hgl i j
    show MatchUpS.normalise { ms with a := g.hd.a } = .ok g.hd
    rw [hga]; exact hnorm
  have hmain : ∀ q, (do
      let pc ← ms.preconditioner o pc sp
      let g ← Evaluable.solver o { ms with a := pc.1 } pc.2 none
      let sensors ← needKey g.hd.mu.idx.parameter_sensor
      let r ← g.run o.lsmr o.minres o.tol (!false)
      let saved := if false = true then some (GN.save { g with xyza := r.state.xyza }) else none
      pure (harmResult sensors g.hd.mu.original_idx r, saved)) = Except.ok q ↔
      ∃ v, (StagedOp.on env defaultAdjustment ds sd (some gf.save)).Elements o ms.a.length v ∧
        q = ({ r with covariance := some ((List.range ms.a.length).map fun i => (List.range ms.a.length).map fun j => (v i j + v j i) / 2) }, none) := by
    intro q
    rw [e1, ok_bind', e2, ok_bind', e3, ok_bind', Bool.not_false, run_with_covariance e4]
    simp only [Bool.false_eq_true, if_false]
    constructor
    · intro h
      obtain ⟨R', h1, h⟩ := bind_ok.1 h
      obtain ⟨C, h2, h1⟩ := bind_ok.1 h1
      rw [pure_ok] at h1 h
      obtain ⟨v, v1, v2⟩ := covariance_iff.1 h2
      rw [hgl] at v1 v2
      refine ⟨v, fun i hi j hj => (hel i j).trans (v1 i hi j hj), ?_⟩
      rw [← h, ← h1, ← hr1, ← v2]
      rfl
    · rintro ⟨v, v1, rfl⟩
      have hc : gf.covariance o.minres = .ok ((List.range ms.a.length).map fun i => (List.range ms.a.length).map fun j => (v i j + v j i) / 2) := by
        refine covariance_iff.2 ⟨v, ?_, by rw [hgl]⟩
        rw [hgl]
        exact fun i hi j hj => (hel i j).symm.trans (v1 i hi j hj)
      refine bind_ok.2 ⟨_, bind_ok.2 ⟨_, hc, rfl⟩, ?_⟩
      rw [← hr1]
      rfl
  refine ⟨gf.save, hr2.symm, hmain, ?_⟩
  intro hten q v hq hv dir files hfiles
  obtain ⟨w, w1, rfl⟩ := (hmain q).1 hq
  refine ⟨_, C53_small_partial hten dir v hfiles, ?_⟩
  show some _ = some _
  congr 1
  refine List.map_congr_left fun i hi => List.map_congr_left fun j hj => ?_
  have hij := w1 i (List.mem_range.1 hi) j (List.mem_range.1 hj)
  have hji := w1 j (List.mem_range.1 hj) i (List.mem_range.1 hi)
  rw [hv i (List.mem_range.1 hi) j (List.mem_range.1 hj)] at hij
  rw [hv j (List.mem_range.1 hj) i (List.mem_range.1 hi)] at hji
  rw [Except.ok.inj hij, Except.ok.inj hji]

/-- **C83 (partial), the initial state.** What `calculate_GNOp_initial` saves is the solver of the normalised match-ups, at the data and the initial parameters, without
preconditioner; the elements computed from it are those of that solver. -/
theorem C83_initial_partial [LinearOrder α] {env : ReadEnv α δ} {o : HarmRoutines α δ} (hop : OperatorOnly o.minres) {ds : List (Dataset α)}
    {sd : SensorData α (SensorModel α δ) (AdjModel α)} {ms : Evaluable α δ} (hms : openMatchUpWith env defaultAdjustment ds sd = .ok ms)
    (hm : ∀ f ∈ ms.sensor_model, f.Timeless) {t : Option (GNSaved α)} {f : GNSaved α}
    (hf : (StagedOp.on env defaultAdjustment ds sd t).initial o = .ok f) :
    ∃ nm : Evaluable α δ, ms.normalise = .ok nm ∧
      (let g : GN α δ := { hd := nm, xyza := nm.mu.values ++ ms.a, S := identS ms.a.length }
       f = g.save ∧ ∀ i j, (StagedOp.on env defaultAdjustment ds sd (some f)).covarianceIJ o i j = g.covarianceIJ o.minres i j) := by
  unfold StagedOp.initial at hf
  obtain ⟨ms', h1, hf⟩ := bind_ok.1 hf
  obtain ⟨_, h2, hf⟩ := bind_ok.1 hf
  obtain ⟨nm, h3, hf⟩ := bind_ok.1 hf
  obtain ⟨g, h4, hf⟩ := bind_ok.1 hf
  rw [pure_ok] at hf
  have hms' : openMatchUpWithIf env defaultAdjustment ds sd true true = .ok ms' := by
    unfold StagedOp.read at h1
    obtain ⟨_, a1, h1⟩ := bind_ok.1 h1
    obtain ⟨_, a2, h1⟩ := bind_ok.1 h1
    obtain ⟨_, a3, h1⟩ := bind_ok.1 h1
    cases a1; cases a2; cases a3
    exact h1
  have hsame : ms' = ms := by
    have : openMatchUpWithIf env defaultAdjustment ds sd true true = openMatchUpWith env defaultAdjustment ds sd := by
      unfold openMatchUpWithIf openMatchUpWith
      rw [C74_default]
    rw [this, hms] at hms'
    exact (Except.ok.inj hms').symm
  subst hsame
  have ha : nm.a = ms'.a := by
    obtain ⟨_, _, hhd⟩ := normalise_ok h3
    rw [hhd]
  have hg : g = { hd := nm, xyza := nm.mu.values ++ nm.a, S := identS nm.a.length } := (Except.ok.inj h4).symm
  refine ⟨nm, h3, ?_⟩
  rw [← ha]
  subst hg
  refine ⟨hf.symm, ?_⟩
  intro i j
  rw [← hf]
  refine C83_element_partial hop hms hm (g := { hd := nm, xyza := nm.mu.values ++ nm.a, S := identS nm.a.length }) ?_ (by rw [ha]) i j
  show MatchUpS.normalise { ms' with a := nm.a } = .ok nm
  rw [ha]; exact h3

/-! ### What never works -/

/-- **C83 fails for a new operator**: every staged method ends with an `AttributeError`. -/
theorem C83_new_operator_fails [LinearOrder α] (o : HarmRoutines α δ) (draw : List α → List α) (i j : Nat) :
    (StagedOp.new : StagedOp α δ).runPC o = .error .attributeError ∧ (StagedOp.new : StagedOp α δ).initial o = .error .attributeError ∧
    (StagedOp.new : StagedOp α δ).covarianceIJ o i j = .error .attributeError ∧ (StagedOp.new : StagedOp α δ).mcTrial o draw = .error .attributeError :=
  ⟨rfl, rfl, rfl, rfl⟩

/-- **C83 fails for the preconditioner alone**: whatever the attributes, the match-ups and the routines, it never returns. -/
theorem C83_runPC_never_finishes [LinearOrder α] (o : HarmRoutines α δ) (op : StagedOp α δ) (r : List α × List (List α)) : op.runPC o ≠ .ok r := by
  intro h
  unfold StagedOp.runPC at h
  obtain ⟨_, _, h⟩ := bind_ok.1 h
  obtain ⟨_, _, h⟩ := bind_ok.1 h
  obtain ⟨_, _, h⟩ := bind_ok.1 h
  obtain ⟨_, _, h⟩ := bind_ok.1 h
  obtain ⟨_, _, h⟩ := bind_ok.1 h
  obtain ⟨_, h', _⟩ := bind_ok.1 h
  cases h'

/-- **C83 fails for Monte Carlo trials**: whatever the attributes, the match-ups, the draws and the routines, a trial never returns. -/
theorem C83_trial_never_finishes [LinearOrder α] (o : HarmRoutines α δ) (draw : List α → List α) (op : StagedOp α δ) (r : GNResult α) : op.mcTrial o draw ≠ .ok r := by
  intro h
  unfold StagedOp.mcTrial at h
  obtain ⟨_, _, h⟩ := bind_ok.1 h
  obtain ⟨_, _, h⟩ := bind_ok.1 h
  obtain ⟨_, _, h⟩ := bind_ok.1 h
  obtain ⟨_, h', _⟩ := bind_ok.1 h
  cases h'

/-- **C83 fails for eleven or more parameters**: the files of the elements cannot be combined. -/
theorem C83_eleven_fails {o : HarmRoutines α δ} {op : StagedOp α δ} {n : Nat} (hn : 11 ≤ n) {v : Nat → Nat → α} (_hv : op.Elements o n v) (dir : List Char)
    {files : List (List Char × α)} (hf : files.Perm (elementFiles dir n v)) : ∃ e, combineCovariance files = .error e :=
  C53_eleven_fails hn dir v hf

end Verif
