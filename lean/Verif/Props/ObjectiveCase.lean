import Verif.Props.ObjectiveRun
import Verif.Props.GNKrylovCase
import Verif.Lemmas.GNOpened
/-
C85 for files; cases; a reference sensor with a systematic effect.
-/
set_option autoImplicit false
namespace Verif
variable {α δ : Type}

section
variable [Field α] [LinearOrder α]

/-- The type of uncertainty of a block of the table. -/
theorem opened_block_type {env : ReadEnv α δ} (he : EnumOk env.enumNat) {ds : List (Dataset α)} (hc : ConsistentFiles ds) {mu : MatchUp α δ}
    (hmu : openMatchUp env ds = .ok mu) {b s n c : Nat} {u : UncBlock α} (hb : mu.idx.blocks[b]? = some (s, n, c)) (hu : mu.unc[b]? = some u) :
    ∃ (d : Dataset α) (sd' : Side α), d ∈ ds ∧ d.HasSide sd' ∧ mu.idx.sensors[s]? = some sd'.name ∧ mu.idx.sensor_ms[s]? = some sd'.m ∧ c - 1 < sd'.m ∧
      (sd'.utype (c - 1) = 1 → u.unc.typeID = 1) := by
  obtain ⟨x, mx, hx, hi⟩ := getIdx_facts (openMatchUp_nonempty hmu)
  obtain ⟨x', hx', _, _, _, _, _, _, _, _, _, _, _, hidx, _⟩ := openMatchUp_inv hmu
  rw [hx] at hx'; cases hx'
  have b1 : mu.idx.sensors = x.sensors := by rw [hidx]
  have b2 : mu.idx.sensor_ms = x.sensor_ms := by rw [hidx]
  have b3 : mu.idx.blocks = x.blocks := by rw [hidx]; rfl
  rw [b3] at hb
  obtain ⟨hn1', hc1, d, sd', hd, hsd, hs, hcm⟩ := (hi.mem_blocks hc).1 (List.mem_of_getElem? hb)
  have hdm := List.mem_of_getElem? hd
  have hsm : sd' ∈ ds.flatMap Dataset.sides := mem_sides.2 ⟨d, hdm, hsd⟩
  obtain ⟨keys, b', ub, hk, hkb, hub, hcase⟩ := C10_declared_uncertainty env he ds hc mu hmu (n - 1) d hd sd' hsd (c - 1) (by omega)
  have hnames : mu.idx.nameBlocks = .ok (x.blocks.map fun b => (x.sensors.getD b.1 "", b.2.1, b.2.2)) := by
    rw [hidx]; exact hi.names hc
  rw [hnames] at hk; cases hk
  have hbb : b' = b := by
    rw [List.getElem?_map] at hkb
    cases hxb : x.blocks[b']? with
    | none => rw [hxb] at hkb; cases hkb
    | some t =>
      obtain ⟨s', n', c'⟩ := t
      rw [hxb] at hkb
      simp only [Option.map_some, Option.some.injEq, Prod.mk.injEq] at hkb
      obtain ⟨k1, k2, k3⟩ := hkb
      obtain ⟨hn1'', hc1', d', sd'', hd', hsd', hs', hcm'⟩ := (hi.mem_blocks hc).1 (List.mem_of_getElem? hxb)
      have hl := hi.sens_lookup (mem_sides.2 ⟨d', List.mem_of_getElem? hd', hsd'⟩)
      have : sd''.name = sd'.name := by
        rw [hs'] at k1
        simpa [List.getD, hl] using k1
      have heq : (s', n', c') = (s, n, c) := by
        have e1 : s' = s := by rw [hs', hs, this]
        have e2 : n' = n := by omega
        have e3 : c' = c := by omega
        rw [e1, e2, e3]
      rw [heq] at hxb
      exact (List.getElem?_inj (List.getElem?_eq_some_iff.1 hxb).1 (hi.nodup hc)).1 (by rw [hxb, hb])
  subst hbb
  rw [hu] at hub; cases hub
  refine ⟨d, sd', hdm, hsd, by rw [b1, hs]; exact hi.sens_lookup hsm, by rw [b2, hs]; exact hi.ms_lookup hc hsm, by omega, fun ht => ?_⟩
  rcases hcase with ⟨_, hun⟩ | ⟨h, _⟩ | ⟨wi, ui, W, U, _, _, _, _, _, hcase⟩
  · simp [hun, Unc.typeID]
  · omega
  · rcases hcase with ⟨h, _⟩ | ⟨h, _⟩ <;> omega

/-- Files in which the first variable of the reference sensors has independent errors only. -/
theorem opened_plain {env : ReadEnv α δ} (he : EnumOk env.enumNat) {ds : List (Dataset α)} {sd : SensorData α (SensorModel α δ) (AdjModel α)}
    (hc : ConsistentFiles ds) (hkeys : (sd.map (·.1)).Nodup) {ms : Evaluable α δ} (h : openMatchUpWith env defaultAdjustment ds sd = .ok ms)
    (hp : ∀ d ∈ ds, ∀ s, d.HasSide s → ∀ e, (s.name, e) ∈ sd → e.model.Reference s.m e.constant → s.utype 0 = 1) : ms.PlainReferences := by
  obtain ⟨mu, e, hmu, hex, rfl⟩ := openMatchUpWith_inv h
  obtain ⟨c1, c2, c3, c4, c5, c6, c7⟩ := C12_extraction defaultAdjustment sd hkeys mu.idx.sensors e hex
  intro i s q pair f name clabels _ _ hf hq hname hcl href b u hb hu
  have hb' : mu.idx.blocks[b]? = some (s, i + 1, 1) := hb
  have hname' : mu.idx.sensors[s]? = some name := hname
  have hq' : mu.idx.sensor_ms[s]? = some q := hq
  obtain ⟨d, sd', hd, hsd, h1, h2, h3, h4⟩ := opened_block_type he hc hmu hb' hu
  rw [hname'] at h1
  rw [hq'] at h2
  have h1 := Option.some.inj h1
  have h2 := Option.some.inj h2
  obtain ⟨en, hen, _, hcon⟩ := c5 _ (List.mem_of_getElem? hname')
  obtain ⟨en', hen', hmod⟩ := c7 _ _ hname'
  have heq : en' = en := by
    have := List.inj_on_of_nodup_map hkeys hen' hen rfl
    simpa using this
  subst heq
  have hff : f = en'.model := by
    have : e.sensor_model[s]? = some f := hf
    rw [hmod] at this
    exact (Option.some.inj this).symm
  have hcl' : clabels = e.constant_sensor := by
    have : some e.constant_sensor = some clabels := hcl
    exact (Option.some.inj this).symm
  refine h4 (hp d hd sd' hsd en' (by rw [← h1]; exact hen) ?_)
  rw [← h2, ← hff]
  have hlab : labelled e.constant_sensor e.constant name = en'.constant := by
    rw [← hcon]; exact pick_eq_selectBy _ _ _
  rw [← hlab, ← hcl']
  exact href

variable [IsStrictOrderedRing α]

/-- **C85, files.** Match-ups opened from files in which every calibrated sensor may have any kind of uncertainty, and the first variable of the references independent errors: the cost
reported by a run from the data is the objective of the residuals it returns. -/
theorem C85_files {env : ReadEnv α δ} (he : EnumOk env.enumNat) {ds : List (Dataset α)} {sd : SensorData α (SensorModel α δ) (AdjModel α)} {m : Nat}
    (hf : SolvableFiles ds sd m) {ms : Evaluable α δ} (h : openMatchUpWith env defaultAdjustment ds sd = .ok ms) (hn : ms.mu.Normalisable)
    (hp : ∀ d ∈ ds, ∀ s, d.HasSide s → ∀ e, (s.name, e) ∈ sd → e.model.Reference s.m e.constant → s.utype 0 = 1)
    {g : GN α δ} (hg : g.Solves ms) (hstart : g.xyza.take g.hd.mu.values.length = g.hd.mu.values) (hx2 : 2 ≤ g.xyza.length)
    {o : LsmrOpts α} (hh : 0 < o.huge) {sqrt : α → Py α} (hs : IsSqrt sqrt) {tol : GNTol α} {minres : GN α δ → List α → Py (List α)} {rc : Bool} {res : GNResult α}
    (hrun : g.run (GN.lsmrObject o sqrt) minres tol rc = .ok res) :
    ∃ q, ms.mu.WeightedSq res.values_res q ∧ (∀ q', ms.mu.WeightedSq res.values_res q' → q' = q) ∧ 0 ≤ q ∧ res.cost = q + ms.mu.kObjective res.ks_res := by
  obtain ⟨labels, clabels, hr⟩ := opened_solverReady he hf h
  exact C85_run hr hg hn (opened_plain he hf.consistent hf.keys h hp) hstart hx2 hh hs hrun
end

namespace Fixture

theorem pairCase_plain {α : Type} [Field α] (r0 r1 x0 x1 k0 k1 a : α) : (pairCase r0 r1 x0 x1 k0 k1 a).PlainReferences := by
  intro i s q pair f name clabels _ _ _ _ _ _ _ b u _ hu
  rcases b with _ | _ | b
  · cases hu; rfl
  · cases hu; rfl
  · simp [pairCase] at hu

theorem pairCase_normalisable {α : Type} [Field α] (r0 r1 x0 x1 k0 k1 a : α) : (pairCase r0 r1 x0 x1 k0 k1 a).mu.Normalisable := by
  refine ⟨(pairCase_ready r0 r1 x0 x1 k0 k1 a).wf, rfl, rfl, ?_, ?_⟩
  · intro b n u hu hn
    rcases b with _ | _ | b
    · cases hu; cases hn; exact .inl ⟨[1, 1], rfl, by simp, .inl rfl⟩
    · cases hu; cases hn; exact .inl ⟨[1, 1], rfl, by simp, .inl rfl⟩
    · simp [pairCase] at hu
  · simp [pairCase]

/-- As `seesaw`, but the errors of the reference at the first match-up have a systematic part. -/
def seesawSys : Evaluable ℚ Int :=
  { seesaw with mu := { seesaw.mu with unc := [{ unc := .systematic [3, 9/4] [4, 0], uS_i := some 1 }, { unc := .independent [1, 1], uS_i := none }] } }

def seesawSysStart : Py (GN ℚ Int) := do
  let nm ← MatchUpS.normalise seesawSys
  pure { hd := nm, xyza := nm.mu.values ++ nm.a, S := [[1]] }

theorem seesawSys_ready : seesawSys.SolverReady ["B"] [] 1 := by
  have h0 := pairCase_ready (0 : ℚ) 0 0 0 (-16) 9 0
  refine { h0 with wf := { h0.wf with unc := rfl, unck := rfl }, blocks := ?_, sides := ?_ }
  · intro b n u hu hn
    rcases b with _ | _ | b
    · cases hu; cases hn; exact ⟨rfl, rfl, 1, rfl, le_rfl⟩
    · cases hu; cases hn; exact rfl
    · simp [seesawSys, seesaw, pairCase] at hu
  · intro i pair hp
    obtain ⟨⟨n1, q1, f1, B1, a1, a2, a3, a4, a5, a6, a7, a8⟩, ⟨n2, q2, f2, B2, d1, d2, d3, d4, d5, d6, d7, d8⟩⟩ := h0.sides i pair hp
    rcases i with _ | i
    · cases hp
      refine ⟨⟨n1, q1, f1, B1, a1, a2, a3, a4, a5, a6, a7, ?_⟩, ⟨n2, q2, f2, B2, d1, d2, d3, d4, d5, d6, d7, ?_⟩⟩
      · rcases a8 with a8 | ⟨a8, _⟩
        · exact .inl a8
        · refine .inr ⟨a8, fun b c u hb hu => ?_⟩
          rcases b with _ | _ | b
          · cases hu; exact .inr rfl
          · cases hu; exact .inl rfl
          · simp [seesawSys] at hu
      · rcases d8 with d8 | ⟨d8, _⟩
        · exact .inl d8
        · refine .inr ⟨d8, fun b c u hb hu => ?_⟩
          rcases b with _ | _ | b
          · cases hu; exact .inr rfl
          · cases hu; exact .inl rfl
          · simp [seesawSys] at hu
    · simp [seesawSys, seesaw, pairCase, pairIdx] at hp

theorem seesawSys_normalisable : seesawSys.mu.Normalisable := by
  refine ⟨seesawSys_ready.wf, rfl, rfl, ?_, ?_⟩
  · intro b n u hu hn
    rcases b with _ | _ | b
    · cases hu; cases hn; exact .inl ⟨[3, 9/4], rfl, by norm_num, .inr ⟨[4, 0], 1, rfl, rfl, rfl, le_rfl⟩⟩
    · cases hu; cases hn; exact .inl ⟨[1, 1], rfl, by simp, .inl rfl⟩
    · simp [seesawSys] at hu
  · intro u hu a ha
    have : u = [4, 3] := by simpa [seesawSys, seesaw, pairCase] using hu
    subst this
    simp only [List.mem_cons, List.not_mem_nil, or_false] at ha
    rcases ha with rfl | rfl <;> norm_num
end Fixture
open Fixture

/-- The hypotheses of C85 are met: two match-ups with any data which no parameter fits exactly, and any start but the best one. -/
theorem C85_case {r0 r1 x0 x1 k0 k1 a : ℝ} (h1 : r0 + k0 ≠ r1 + k1) (h2 : 2 * a ≠ r0 + k0 + (r1 + k1)) {o : LsmrOpts ℝ} (hh : 0 < o.huge)
    (minres : GN ℝ Int → List ℝ → Py (List ℝ)) (tol : GNTol ℝ) :
    ∃ res q, (pairG r0 r1 x0 x1 k0 k1 a [r0, r1, x0, x1, a]).run (GN.lsmrObject o realSqrt) minres tol false = .ok res ∧
      (pairCase r0 r1 x0 x1 k0 k1 a).mu.WeightedSq res.values_res q ∧ res.cost = q + (pairCase r0 r1 x0 x1 k0 k1 a).mu.kObjective res.ks_res := by
  obtain ⟨res, hr, _⟩ := C63_case h1 h2 hh minres tol
  obtain ⟨q, e1, _, _, e2⟩ := C85_run (pairCase_ready r0 r1 x0 x1 k0 k1 a) (pairG_solves r0 r1 x0 x1 k0 k1 a rfl) (pairCase_normalisable _ _ _ _ _ _ _) (pairCase_plain _ _ _ _ _ _ _)
    (by simp [pairG]) (by simp [pairG]) hh realSqrt_spec hr
  exact ⟨res, q, hr, e1, e2⟩

/-- They are met by the rolling-average file (a W matrix with a systematic effect): whatever run returns on it, from the data, its cost is the objective. -/
theorem C85_case_averaged : ∃ (ms : Evaluable ℚ Int) (g : GN ℚ Int), openMatchUpWith qenv defaultAdjustment [rolling] gnModels = .ok ms ∧ g.Solves ms ∧
    ms.mu.Normalisable ∧ ms.PlainReferences ∧ g.xyza.take g.hd.mu.values.length = g.hd.mu.values ∧ 2 ≤ g.xyza.length ∧
    ∀ d : List ℚ, d.length = 12 → ∃ q, ms.mu.WeightedSq d q ∧ (q = 0 → ∀ e ∈ d, e = 0) := by
  obtain ⟨ms, g, labels, clabels, ho, hr, hs, hn, l1, _⟩ := C58_case
  have hvl : ms.mu.values.length = 12 := by
    obtain ⟨ms', e1, e2⟩ := check_ok' (x := (openMatchUpWith qenv defaultAdjustment [rolling] gnModels : Py (Evaluable ℚ Int))) (fun ms => decide (ms.mu.values.length = 12)) (by decide +kernel)
    rw [ho] at e1; cases e1
    simpa using e2
  have hp : ms.PlainReferences := by
    refine opened_plain qenv_enum (qfile_consistent _ _ _ _) (by decide) ho ?_
    intro d hd s hside e he href
    simp only [List.mem_cons, List.not_mem_nil, or_false] at hd
    subst hd
    rcases hside with rfl | rfl
    · decide
    · exfalso
      have hnm : (qfile [0, 2, 4, 6] [0, 1, 1, 2, 2, 3] [1 / 2, 1 / 2, 1 / 2, 1 / 2, 1 / 2, 1 / 2] [1, 2, 3, 4]).s2.name = "B" := rfl
      have hAB : "A" ≠ "B" := by decide
      simp only [gnModels, hnm, List.mem_cons, Prod.mk.injEq, true_and, hAB.symm, false_and, List.not_mem_nil, or_false, false_or] at he
      subst he
      obtain ⟨R, J, e1, _⟩ := gnCal_calibrated (δ := Int) ([] : List ℚ) [[], []] [2, 3] none none none 0 rfl (by simp) rfl
      have e2 : gnCal (δ := Int) ([[], []] : List (List ℚ)) [2, 3] [] none none none = .ok ([], none) := href [[], []] [2, 3] none none none rfl
      rw [e1] at e2
      cases e2
  refine ⟨ms, { g with xyza := g.hd.mu.values ++ g.hd.a }, ho, ⟨hs.norm, by simp, hs.rows, hs.cols⟩, hn, hp, by simp, by simp [l1]; omega, fun d hd => ?_⟩
  obtain ⟨q, h1, _, _, h2⟩ := C85_definite hr hn (d := d) (by rw [hd, hvl])
  exact ⟨q, h1, h2.1⟩

/-- **C85, failure: a reference with a systematic effect.** The derivatives for a reference sensor leave its systematic effects out. In this run, started at the data, the cost reported
is 16, and the objective of the residuals returned is less. -/
theorem C85_systematic_reference_fails : seesawSys.SolverReady ["B"] [] 1 ∧ seesawSys.mu.Normalisable ∧ ∃ (g : GN ℚ Int) (res : GNResult ℚ) (q : ℚ), seesawSysStart = .ok g ∧
    g.Solves seesawSys ∧ g.xyza.take g.hd.mu.values.length = g.hd.mu.values ∧
    g.run (GN.lsmrObject seesawOpts ratSqrt) noMinres ⟨1 / 10 ^ 6, 1 / 10 ^ 3, 1 / 10 ^ 2⟩ false = .ok res ∧ res.cost = 16 ∧
    seesawSys.mu.WeightedSq res.values_res q ∧ q + seesawSys.mu.kObjective res.ks_res < 14 := by
  refine ⟨seesawSys_ready, seesawSys_normalisable, ?_⟩
  obtain ⟨⟨g, res⟩, h1, h2⟩ := check_ok' (x := (do
      let g ← seesawSysStart
      let r ← g.run (GN.lsmrObject seesawOpts ratSqrt) noMinres ⟨1 / 10 ^ 6, 1 / 10 ^ 3, 1 / 10 ^ 2⟩ false
      pure (g, r) : Py (GN ℚ Int × GNResult ℚ)))
    (fun p => decide (p.2.cost = 16) && decide (p.2.values_res = [144/25, -81/25, 0, 0]) && decide (p.2.ks_res = [256/25, -144/25]) &&
      decide (p.1.xyza.take p.1.hd.mu.values.length = p.1.hd.mu.values)) (by decide +kernel)
  obtain ⟨g', g1, h1⟩ := bind_ok.1 h1
  obtain ⟨r', g2, h1⟩ := bind_ok.1 h1
  rw [pure_ok] at h1
  cases h1
  simp only [Bool.and_eq_true, decide_eq_true_eq] at h2
  obtain ⟨⟨⟨e1, e2⟩, e3⟩, e4⟩ := h2
  have hsol : g.Solves seesawSys := by
    unfold seesawSysStart at g1
    obtain ⟨nm, n1, n2⟩ := bind_ok.1 g1
    rw [pure_ok] at n2
    subst n2
    have ha : nm.a = [0] := by
      obtain ⟨q, _, hq⟩ := normalise_ok n1
      rw [hq]; rfl
    exact ⟨n1, by simp, by rw [ha]; rfl, by rw [ha]; simp⟩
  refine ⟨g, res, 144/25 * (144/25/25) + 81/25 * (81/25/(81/16)), g1, hsol, e4, g2, e1, ?_, ?_⟩
  · refine ⟨fun b r => if b = 0 then (if r = 0 then 144/25/25 else -(81/25/(81/16))) else 0, ?_, ?_⟩
    · intro b r hb hr
      have hb2 : b < 2 := hb
      rw [e2]
      rcases b with _ | _ | b
      · have hr2 : r < 2 := hr
        rcases r with _ | _ | r
        · simp [MatchUp.covMul, MatchUp.numBlocks, MatchUp.blockLen, MatchUp.declaredCov, MatchUp.elem, seesawSys, seesaw, pairCase, pairIdx, Finset.sum_range_succ,
            UncBlock.randomCov, UncBlock.sysUnc]
          norm_num
        · simp [MatchUp.covMul, MatchUp.numBlocks, MatchUp.blockLen, MatchUp.declaredCov, MatchUp.elem, seesawSys, seesaw, pairCase, pairIdx, Finset.sum_range_succ,
            UncBlock.randomCov, UncBlock.sysUnc]
          norm_num
        · omega
      · have hr2 : r < 2 := hr
        rcases r with _ | _ | r
        · simp [MatchUp.covMul, MatchUp.numBlocks, MatchUp.blockLen, MatchUp.declaredCov, MatchUp.elem, seesawSys, seesaw, pairCase, pairIdx, Finset.sum_range_succ,
            UncBlock.randomCov, UncBlock.sysUnc]
        · simp [MatchUp.covMul, MatchUp.numBlocks, MatchUp.blockLen, MatchUp.declaredCov, MatchUp.elem, seesawSys, seesaw, pairCase, pairIdx, Finset.sum_range_succ,
            UncBlock.randomCov, UncBlock.sysUnc]
        · omega
      · omega
    · rw [e2]
      simp [MatchUp.pairing, MatchUp.numBlocks, MatchUp.blockLen, MatchUp.elem, seesawSys, seesaw, pairCase, pairIdx, Finset.sum_range_succ]
      try norm_num
  · rw [e3]
    unfold MatchUp.kObjective dotp
    simp [seesawSys, seesaw, pairCase]
    norm_num
end Verif
