import Verif.Model.Compare
import Verif.Props.Simulate
import Verif.Props.MeasurandUnc
import Verif.Props.Switches
/-
Evaluation of simulated match-ups (for C84).
-/
set_option autoImplicit false
namespace Verif
variable {α δ : Type} [Field α] [LinearOrder α] [IsStrictOrderedRing α]

omit [Field α] [LinearOrder α] [IsStrictOrderedRing α] in
theorem ok_step {β γ : Type} (b : β) (f : β → Py γ) : ((Except.ok b : Py β) >>= f) = f b := rfl

/-- Equally spaced points are determined by their number and the values they spread. -/
theorem Spread.unique {l : List α} {n : Nat} {o o' : List α} (h : Spread l n o) (h' : Spread l n o') : o = o' := by
  obtain ⟨h1, lo, hlo, hi, hhi, hb, _, hh, _, hs⟩ := h
  obtain ⟨h1', lo', hlo', hi', hhi', hb', _, hh', _, hs'⟩ := h'
  have e1 : lo' = lo := le_antisymm (hb' lo hlo).1 (hb lo' hlo').1
  have e2 : hi' = hi := le_antisymm (hb hi' hhi').2 (hb' hi hhi).2
  subst e1; subst e2
  apply List.ext_getElem?
  intro i
  induction i with
  | zero =>
    by_cases hn : 0 < n
    · have a1 : o[0]? = some o[0] := List.getElem?_eq_getElem (by omega)
      have a2 : o'[0]? = some o'[0] := List.getElem?_eq_getElem (by omega)
      have b1 := hh _ (by rw [List.head?_eq_getElem?]; exact a1)
      have b2 := hh' _ (by rw [List.head?_eq_getElem?]; exact a2)
      rw [a1, a2, b1, b2]
    · rw [List.getElem?_eq_none (by omega), List.getElem?_eq_none (by omega)]
  | succ i ih =>
    by_cases hn : i + 1 < n
    · have a1 : o[i]? = some o[i] := List.getElem?_eq_getElem (by omega)
      have a2 : o'[i]? = some o'[i] := List.getElem?_eq_getElem (by omega)
      have c1 : o[i + 1]? = some o[i + 1] := List.getElem?_eq_getElem (by omega)
      have c2 : o'[i + 1]? = some o'[i + 1] := List.getElem?_eq_getElem (by omega)
      have d1 := hs _ _ _ a1 c1
      have d2 := hs' _ _ _ a2 c2
      rw [a1, a2] at ih
      have e := Option.some.inj ih
      rw [c1, c2]
      congr 1
      linear_combination d1 - d2 + e
    · rw [List.getElem?_eq_none (by omega), List.getElem?_eq_none (by omega)]

/-- The columns at which calibrations are compared: `n` equally spaced values from the least to the greatest of each column of the side. -/
def SpreadColumns (n : Nat) (d : Dataset α) (s : Side α) (X : List (List α)) : Prop :=
  X.length = s.m ∧ ∀ (c : Nat) (col : List α), X[c]? = some col → Spread ((List.range d.M).map fun r => s.X r c) n col

/-- A side of a simulated match-up: the model of the sensor on equally spaced values, without times or track indices, with any parameters in place of the original ones. -/
theorem simulated_side {env : ReadEnv α δ} {dflt : AdjModel α} {ds : List (Dataset α)} (hc : ConsistentFiles ds) (hcol : ∀ d ∈ ds, 1 ≤ d.s1.m ∧ 1 ≤ d.s2.m) (hM : ∀ d ∈ ds, 1 ≤ d.M)
    {sd : SensorData α (SensorModel α δ) (AdjModel α)} (hn : (sd.map (·.1)).Nodup) {ms : Evaluable α δ} (h : openMatchUpWith env dflt ds sd = .ok ms) (n : Nat) :
    ∃ (sim : Evaluable α δ) (f : String → Nat) (labels : List String), simulate ms n = .ok sim ∧ sim.a = ms.a ∧ ms.mu.idx.parameter_sensor = some labels ∧ sim.mu.idx.parameter_sensor = some labels ∧
      sim.mu.idx.Nm = ds.map (fun _ => n) ∧ sim.mu.idx.cNm = prefixSums (ds.map fun _ => n) ∧ sim.mu.idx.sensors = ms.mu.idx.sensors ∧
      seriesSet sim.mu.idx.n_mu = (List.range ds.length).map (· + 1) ∧
      (∀ nm, nm ∈ sim.mu.idx.sensors ↔ ∃ d ∈ ds, nm = d.s1.name ∨ nm = d.s2.name) ∧
      sim.mu.idx.Im = ds.map (fun d => (f d.s1.name, f d.s2.name)) ∧
      ∀ (i : Nat) (d : Dataset α) (s : Side α), ds[i]? = some d → s = d.s1 ∨ s = d.s2 → sim.mu.idx.sensors[f s.name]? = some s.name ∧ sim.mu.idx.sensor_ms[f s.name]? = some s.m ∧
        ∀ en, (s.name, en) ∈ sd → selectBy ms.a labels s.name = en.parameter ∧ (∃ X, SpreadColumns n d s X) ∧
          ∀ (X : List (List α)), SpreadColumns n d s X → ∀ (p : List α),
          sideMeasurand { sim with a := p } (i + 1) (f s.name) = en.model X (selectBy p labels s.name) en.constant none none none := by
  obtain ⟨mu, e, hmu, he, rfl⟩ := openMatchUpWith_inv h
  have hwf := opened_wellLaid env ds hc (fun d hd => .inl (hcol d hd).1) mu hmu
  obtain ⟨x, mx, hx, hf⟩ := getIdx_facts (openMatchUp_nonempty hmu)
  obtain ⟨x', hx', hv, _, _, _, _, _, _, _, _, _, _, hidx, _⟩ := openMatchUp_inv hmu
  rw [hx] at hx'; cases hx'
  obtain ⟨out, ho, hol, hsl⟩ := openValues_spec hf hc
  rw [hv] at ho; cases ho
  have hNm : mu.idx.Nm = ds.map (·.M) := by rw [hidx]; exact hf.Nm
  have hpos : ∀ M ∈ mu.idx.Nm, 0 < M := by
    rw [hNm]
    intro M hm
    obtain ⟨d, hd, rfl⟩ := List.mem_map.1 hm
    exact hM d hd
  have hposV : ∀ M ∈ mu.idx.N_var, 0 < M := by
    intro M hm
    obtain ⟨b, hb⟩ := List.getElem?_of_mem hm
    have hbl : b < mu.idx.n_mu.length := by rw [← hwf.idx.len]; exact (List.getElem?_eq_some_iff.1 hb).1
    obtain ⟨-, M', h1, h2⟩ := hwf.idx.block b _ (List.getElem?_eq_getElem hbl)
    rw [hb] at h2; cases h2
    exact hpos M (List.mem_of_getElem? h1)
  obtain ⟨v, v1, v2, v3⟩ := simulateX_ok hwf.values hposV n
  obtain ⟨k, k1, k2, k3⟩ := simulateX_ok hwf.ks hpos n
  rw [← hwf.idx.bounds] at v1
  rw [← hwf.idx.series] at k1
  have hsens : mu.idx.sensors = x.sensors := by rw [hidx]
  obtain ⟨c1, c2, c3, c4, c5, c6, c7⟩ := C12_extraction dflt sd hn mu.idx.sensors e he
  refine ⟨_, fun nm => mu.idx.sensors.idxOf nm, e.a_sensor, bind_ok.2 ⟨v, v1, bind_ok.2 ⟨k, k1, rfl⟩⟩, rfl, rfl, rfl, ?_, ?_, rfl, ?_, ?_, ?_, ?_⟩
  · show (mu.idx.Nm.map fun _ => n) = _
    rw [hNm, List.map_map]; rfl
  · show prefixSums (mu.idx.Nm.map fun _ => n) = _
    rw [hNm, List.map_map]; rfl
  · show seriesSet mu.idx.n_mu = _
    rw [seriesSet_eq hwf.idx, hNm, List.length_map, List.range'_eq_map_range]
    apply List.map_congr_left
    intro a _; omega
  · intro nm
    show nm ∈ mu.idx.sensors ↔ _
    rw [hsens, hf.sens_mem]
    constructor
    · rintro ⟨s, hs, rfl⟩
      obtain ⟨d, hd, rfl | rfl⟩ := mem_sides.1 hs
      exacts [⟨d, hd, .inl rfl⟩, ⟨d, hd, .inr rfl⟩]
    · rintro ⟨d, hd, rfl | rfl⟩
      exacts [⟨d.s1, mem_sides.2 ⟨d, hd, .inl rfl⟩, rfl⟩, ⟨d.s2, mem_sides.2 ⟨d, hd, .inr rfl⟩, rfl⟩]
  · show mu.idx.Im = _
    rw [hidx]
    exact hf.Im
  · intro i d s hd hs
    have hside : s ∈ ds.flatMap Dataset.sides := mem_sides.2 ⟨d, List.mem_of_getElem? hd, hs⟩
    have hlook : mu.idx.sensors[mu.idx.sensors.idxOf s.name]? = some s.name := by rw [hidx]; exact hf.sens_lookup hside
    refine ⟨hlook, ?_, ?_⟩
    · obtain ⟨s', hs', hn', hm'⟩ := hf.ms_first _ _ (hf.sens_lookup hside)
      obtain ⟨d', hd', hs'⟩ := mem_sides.1 hs'
      show mu.idx.sensor_ms[mu.idx.sensors.idxOf s.name]? = _
      rw [hidx]
      have : s'.m = s.m := hc.2 d' hd' d (List.mem_of_getElem? hd) s' (by rcases hs' with rfl | rfl <;> simp) s (by rcases hs with rfl | rfl <;> simp) hn'
      rw [← this]; exact hm'
    intro en hen
    have huniq : ∀ e', (s.name, e') ∈ sd → e' = en := by
      intro e' h'
      have := (List.nodup_map_iff_inj_on (List.Nodup.of_map _ hn)).1 hn _ h' _ hen rfl
      simpa using this
    obtain ⟨ea, hea, hpar, hcon⟩ := c5 s.name (List.mem_of_getElem? hlook)
    rw [huniq ea hea] at hpar hcon
    obtain ⟨eb, heb, hmd⟩ := c7 _ _ hlook
    rw [huniq eb heb] at hmd
    have hcov := hf.cov_blocks hc hd hs
    have hm : 1 ≤ s.m := by
      have := hcol d (List.mem_of_getElem? hd)
      rcases hs with rfl | rfl
      exacts [this.1, this.2]
    set q := x.sensors.idxOf s.name with hq
    have hcb0 : covBlocks mu.idx q (i + 1) = covBlocks x q (i + 1) := by rw [hidx]; rfl
    have hcovlen : (covBlocks x q (i + 1)).length = s.m := by
      have := congrArg List.length hcov; simpa using this
    have hNl := hf.N_var_length
    have hNx : mu.idx.N_var = x.N_var := by rw [hidx]
    have hblk : ∀ (k b : Nat), (covBlocks x q (i + 1))[k]? = some b → b < mu.idx.N_var.length ∧
        slice mu.values (mu.idx.N_var.take b).sum (mu.idx.N_var.take (b + 1)).sum = (List.range d.M).map fun r => s.X r k := by
      intro k b hk
      have hklt : k < s.m := by have := (List.getElem?_eq_some_iff.1 hk).1; omega
      have hb := congrArg (fun l => l[k]?) hcov
      simp only [List.getElem?_map, hk, Option.map_some, List.getElem?_range hklt] at hb
      have hb : x.blocks[b]? = some (q, i + 1, k + 1) := by simpa using hb
      have hbl : b < x.blocks.length := (List.getElem?_eq_some_iff.1 hb).1
      rw [hNx]
      exact ⟨by omega, hsl i d s k b hd hs hklt hb⟩
    -- the columns of the simulated match-up
    let cols := (covBlocks x q (i + 1)).map fun b => slice v ((mu.idx.N_var.map fun _ => n).take b).sum ((mu.idx.N_var.map fun _ => n).take (b + 1)).sum
    have hcols : SpreadColumns n d s cols := by
      refine ⟨by simp [cols, hcovlen], ?_⟩
      intro c col hcc
      simp only [cols, List.getElem?_map] at hcc
      obtain ⟨b, hb, rfl⟩ := Option.map_eq_some_iff.1 hcc
      obtain ⟨hb1, hb2⟩ := hblk c b hb
      have := v3 b hb1
      rw [hb2] at this
      exact this
    refine ⟨hpar, ⟨cols, hcols⟩, ?_⟩
    intro X hX p
    have hXc : X = cols := by
      apply List.ext_getElem?
      intro c
      by_cases hcl : c < s.m
      · obtain ⟨z1, a1⟩ : ∃ z, X[c]? = some z := ⟨_, List.getElem?_eq_getElem (by rw [hX.1]; exact hcl)⟩
        obtain ⟨z2, a2⟩ : ∃ z, cols[c]? = some z := ⟨_, List.getElem?_eq_getElem (by rw [hcols.1]; exact hcl)⟩
        rw [a1, a2, (hX.2 _ _ a1).unique (hcols.2 _ _ a2)]
      · rw [List.getElem?_eq_none (by rw [hX.1]; omega), List.getElem?_eq_none (by rw [hcols.1]; omega)]
    subst hXc
    have hqm : mu.idx.sensors.idxOf s.name = q := by rw [hsens]
    have hlook' : mu.idx.sensors[q]? = some s.name := by rw [← hqm]; exact hlook
    have hdiff : ∀ b, b < mu.idx.N_var.length → ((mu.idx.N_var.map fun _ => n).take (b + 1)).sum = ((mu.idx.N_var.map fun _ => n).take b).sum + n := by
      intro b hb
      rw [List.take_add_one, List.sum_append, List.getElem?_map, List.getElem?_eq_getElem hb]; simp
    have hci : (covBlocks x q (i + 1)).mapM (fun b => (do
        let lo ← pyGet (prefixSums (mu.idx.N_var.map fun _ => n)) b
        let hi ← pyGet (prefixSums (mu.idx.N_var.map fun _ => n)) (b + 1)
        pure (lo, hi) : Py (Nat × Nat))) = .ok ((covBlocks x q (i + 1)).map fun b => (((mu.idx.N_var.map fun _ => n).take b).sum, ((mu.idx.N_var.map fun _ => n).take (b + 1)).sum)) := by
      apply mapM_ok_of
      intro b hb
      obtain ⟨k, hk⟩ := List.mem_iff_getElem?.1 hb
      obtain ⟨hb1, _⟩ := hblk k b hk
      exact bind_ok.2 ⟨_, pyGet_prefixSums _ (by simp; omega), bind_ok.2 ⟨_, pyGet_prefixSums _ (by simp; omega), rfl⟩⟩
    obtain ⟨b0, hb0⟩ : ∃ b0, (covBlocks x q (i + 1))[0]? = some b0 := ⟨_, List.getElem?_eq_getElem (by omega)⟩
    have hb0l := (hblk 0 b0 hb0).1
    have hcm : ((covBlocks x q (i + 1)).map fun b => (((mu.idx.N_var.map fun _ => n).take b).sum, ((mu.idx.N_var.map fun _ => n).take (b + 1)).sum)).mapM (fun b : Nat × Nat =>
        setSlice (List.replicate n (0 : α)) 0 n (slice v b.1 b.2)) = .ok cols := by
      have : cols = ((covBlocks x q (i + 1)).map fun b => (((mu.idx.N_var.map fun _ => n).take b).sum, ((mu.idx.N_var.map fun _ => n).take (b + 1)).sum)).map fun b => slice v b.1 b.2 := by
        simp only [cols, List.map_map]; rfl
      rw [this]
      apply mapM_ok_of
      intro b hb
      obtain ⟨b', hb', rfl⟩ := List.mem_map.1 hb
      obtain ⟨k, hk⟩ := List.mem_iff_getElem?.1 hb'
      have hl : (slice v ((mu.idx.N_var.map fun _ => n).take b').sum ((mu.idx.N_var.map fun _ => n).take (b' + 1)).sum).length = n :=
        (v3 b' (hblk k b' hk).1).1
      simp only
      rw [setSlice_eq (Nat.zero_le _) (by simp) (by rw [hl]; omega)]
      simp
    have harr : ∀ {β : Type}, (Idx.getSensorArray (simulateIdx (mu.idx.withSensorData e) n) (none : Option (List β)) none (i + 1) s.name) = .ok none := by
      intro β
      have hil : i < ds.length := (List.getElem?_eq_some_iff.1 hd).1
      have hcN : (simulateIdx (mu.idx.withSensorData e) n).cNm = prefixSums (ds.map fun _ => n) := by
        show prefixSums (mu.idx.Nm.map fun _ => n) = _
        rw [hNm, List.map_map]; rfl
      have hI : (simulateIdx (mu.idx.withSensorData e) n).Im[i]? = some (mu.idx.sensors.idxOf d.s1.name, mu.idx.sensors.idxOf d.s2.name) := by
        show mu.idx.Im[i]? = _
        rw [hidx]
        simp only [hf.Im, List.getElem?_map, hd, Option.map_some]
      have hl1 : (simulateIdx (mu.idx.withSensorData e) n).sensors[mu.idx.sensors.idxOf d.s1.name]? = some d.s1.name := by
        show mu.idx.sensors[_]? = _
        rw [hidx]; exact hf.sens_lookup (mem_sides.2 ⟨d, List.mem_of_getElem? hd, .inl rfl⟩)
      have hl2 : (simulateIdx (mu.idx.withSensorData e) n).sensors[mu.idx.sensors.idxOf d.s2.name]? = some d.s2.name := by
        show mu.idx.sensors[_]? = _
        rw [hidx]; exact hf.sens_lookup (mem_sides.2 ⟨d, List.mem_of_getElem? hd, .inr rfl⟩)
      unfold Idx.getSensorArray
      rw [hcN]
      refine bind_ok.2 ⟨_, pyGet_prefixSums _ (by simp; omega), bind_ok.2 ⟨_, pyGet_prefixSums _ (by simp; omega), bind_ok.2 ⟨_, pyGet_ok.2 hI, bind_ok.2 ⟨_, pyGet_ok.2 hl1, bind_ok.2 ⟨_, pyGet_ok.2 hl2, ?_⟩⟩⟩⟩⟩
      rcases hs with rfl | rfl
      · rw [if_pos rfl]; rfl
      · by_cases h12 : d.s2.name = d.s1.name
        · rw [if_pos h12]; rfl
        · rw [if_neg h12, if_pos rfl]; rfl
    unfold sideMeasurand
    simp only [hqm]
    rw [show pyGet (simulateIdx (mu.idx.withSensorData e) n).sensors q = .ok s.name from pyGet_ok.2 hlook']
    rw [show covBlocks (simulateIdx (mu.idx.withSensorData e) n) q (i + 1) = covBlocks x q (i + 1) from hcb0]
    rw [show (simulateIdx (mu.idx.withSensorData e) n).idx = prefixSums (mu.idx.N_var.map fun _ => n) from rfl]
    rw [ok_step, hci, ok_step]
    rw [show pickLabelled (simulateIdx (mu.idx.withSensorData e) n).parameter_sensor p s.name = .ok (selectBy p e.a_sensor s.name) from congrArg Except.ok (pick_eq_selectBy _ _ _), ok_step]
    rw [show pickLabelled (simulateIdx (mu.idx.withSensorData e) n).constant_sensor e.constant s.name = .ok en.constant from congrArg Except.ok ((pick_eq_selectBy _ _ _).trans hcon), ok_step]
    rw [show pyGet ((covBlocks x q (i + 1)).map fun b => (((mu.idx.N_var.map fun _ => n).take b).sum, ((mu.idx.N_var.map fun _ => n).take (b + 1)).sum)) 0 =
      .ok (((mu.idx.N_var.map fun _ => n).take b0).sum, ((mu.idx.N_var.map fun _ => n).take (b0 + 1)).sum) by rw [pyGet, List.getElem?_map, hb0]; rfl, ok_step]
    simp only [hdiff b0 hb0l, Nat.add_sub_cancel_left]
    rw [hcm, ok_step]
    unfold MatchUp.getSensorAcrossTrackIndex MatchUp.getSensorAlongTrackIndex MatchUp.getSensorTime
    simp only
    rw [harr, ok_step, harr, ok_step, ok_step]
    rw [show pyGet e.sensor_model q = .ok en.model by rw [← hqm]; exact pyGet_ok.2 hmd, ok_step]

end Verif
