import Verif.Props.PropagationCase
import Verif.Props.OrderCov
import Verif.Props.OrderCase
/-
Property C93: a concrete case.
-/
set_option autoImplicit false
namespace Verif
namespace Fixture
def oneSide {α : Type} [Field α] (name : String) (x : α) : Side α where
  name := name
  m := 1
  X := fun _ _ => x
  Ur := fun _ _ => 1
  Us := fun _ _ => 0
  utype := fun _ => 1
  wUse := fun _ => 0
  uUse := fun _ => 0

def oneFile {α : Type} [Field α] (s1 s2 : Side α) (k : α) : Dataset α where
  M := 1
  s1 := s1
  s2 := s2
  K := fun _ => k
  Kr := fun _ => 1
  Ks := fun _ => 0
  time1 := fun _ => 0
  time2 := fun _ => 0
  hasUse := false
  vars := []
  wNnz := []
  wVal := []
  wCol := []
  wRow := []
  uCount := []
  uVal := []

def cenv {α : Type} [Field α] : ReadEnv α Int := { nan := 0, fill := 0, toInt := id, rss := fun a _ => a, dateZero := 0, toDate := fun _ => 0, enumStr := List.eraseDups, enumNat := List.eraseDups }

def offsetModels {α δ : Type} [Field α] : SensorData α (SensorModel α δ) (AdjModel α) :=
  [("A", { parameter := [], constant := [], model := gnRef }), ("B", { parameter := [2], constant := [], model := offsetCal })]


def ordIdx (l : List String) : Idx :=
  { Nm := [1, 1], cNm := [0, 1, 2], Im := [(0, 1), (1, 0)], sensors := l, sensor_ms := [1, 1], n_sensor := [0, 1, 1, 0], n_mu := [1, 1, 2, 2]
    n_cov := [1, 1, 1, 1], N_var := [1, 1, 1, 1], idx := [0, 1, 2, 3, 4], additional_values_name := some [], parameter_sensor := some ["B"], constant_sensor := some [] }

def ordCase {α : Type} [Field α] (l : List String) (f : List (SensorModel α Int)) (v : List α) (k0 k1 : α) : Evaluable α Int :=
  { mu :=
      { idx := ordIdx l, original_idx := ordIdx l, values := v, ks := [k0, k1], unck := [[1], [1]]
        unc := List.replicate 4 { unc := .independent [1], uS_i := none }
        w_matrices := [], u_matrices := []
        time1 := some [0, 0], time2 := some [0, 0], across_track_index1 := none, across_track_index2 := none, along_track_index1 := none, along_track_index2 := none
        additional_values := some [] }
    a := [2], constant := [], sensor_model := f, adjustment_model := [defaultAdjustment, defaultAdjustment] }

def ordG {α : Type} [Field α] (l : List String) (f : List (SensorModel α Int)) (v : List α) (k0 k1 : α) (xyza : List α) : GN α Int :=
  { hd := { ordCase l f v k0 k1 with mu := { (ordCase l f v k0 k1).mu with values := v.map (· / 1), ks := [k0 / 1, k1 / 1], time1 := none, time2 := none, additional_values := none } }
    xyza := xyza, S := [[1]] }

theorem ord_opens {α : Type} [Field α] [DecidableEq α] (a1 b1 a2 b2 k1 k2 : α) :
    openMatchUpWith cenv defaultAdjustment [oneFile (oneSide "A" a1) (oneSide "B" b1) k1, oneFile (oneSide "B" b2) (oneSide "A" a2) k2] offsetModels =
      .ok (ordCase ["A", "B"] [gnRef, offsetCal] [a1, b1, b2, a2] k1 k2) := by kernel_rfl

theorem ord_opens' {α : Type} [Field α] [DecidableEq α] (a1 b1 a2 b2 k1 k2 : α) :
    openMatchUpWith cenv defaultAdjustment [oneFile (oneSide "B" b2) (oneSide "A" a2) k2, oneFile (oneSide "A" a1) (oneSide "B" b1) k1] offsetModels =
      .ok (ordCase ["B", "A"] [offsetCal, gnRef] [b2, a2, a1, b1] k2 k1) := by kernel_rfl

theorem ordG_norm {α : Type} [Field α] (v0 v1 v2 v3 k0 k1 : α) (l : List α) :
    (ordCase ["A", "B"] [gnRef, offsetCal] [v0, v1, v2, v3] k0 k1).normalise = .ok (ordG ["A", "B"] [gnRef, offsetCal] [v0, v1, v2, v3] k0 k1 l).hd := by kernel_rfl

theorem ordG_norm' {α : Type} [Field α] (v0 v1 v2 v3 k0 k1 : α) (l : List α) :
    (ordCase ["B", "A"] [offsetCal, gnRef] [v0, v1, v2, v3] k0 k1).normalise = .ok (ordG ["B", "A"] [offsetCal, gnRef] [v0, v1, v2, v3] k0 k1 l).hd := by kernel_rfl

theorem ord_kOf (v0 v1 v2 v3 k0 k1 w0 w1 w2 w3 b : ℝ) :
    (ordCase ["A", "B"] [gnRef, offsetCal] [v0, v1, v2, v3] k0 k1).kOf [w0, w1, w2, w3] [b] = .ok [b - w0, w3 - b] := by kernel_rfl

theorem ordG_getJPx {α : Type} [Field α] (v0 v1 v2 v3 k0 k1 y0 y1 y2 y3 y4 z0 z1 z2 z3 z4 : α) :
    (ordG ["A", "B"] [gnRef, offsetCal] [v0, v1, v2, v3] k0 k1 [y0, y1, y2, y3, y4]).getJPx [z0, z1, z2, z3, z4] =
    .ok [z0, z1, z2, z3, (0 + ((-1) * 1) * z0 * 1 / 1) + (1 * 1) * 0 * z1 * 1 / 1 + (1 * (1 / 1 * 1 * (1 * z4 + 0) + 0)),
      (0 + ((-1) * 1) * 0 * z2 * 1 / 1 + ((-1) * (1 / 1 * 1 * (1 * z4 + 0) + 0))) + (1 * 1) * z3 * 1 / 1] := by
  kernel_rfl

theorem ordG_getJPx' {α : Type} [Field α] (v0 v1 v2 v3 k0 k1 y0 y1 y2 y3 y4 z0 z1 z2 z3 z4 : α) :
    (ordG ["B", "A"] [offsetCal, gnRef] [v0, v1, v2, v3] k0 k1 [y0, y1, y2, y3, y4]).getJPx [z0, z1, z2, z3, z4] =
    .ok [z0, z1, z2, z3, (0 + ((-1) * 1) * 0 * z0 * 1 / 1 + ((-1) * (1 / 1 * 1 * (1 * z4 + 0) + 0))) + (1 * 1) * z1 * 1 / 1,
      (0 + ((-1) * 1) * z2 * 1 / 1) + (1 * 1) * 0 * z3 * 1 / 1 + (1 * (1 / 1 * 1 * (1 * z4 + 0) + 0))] := by
  kernel_rfl

theorem ordG_solves (v0 v1 v2 v3 k0 k1 : ℝ) {l : List ℝ} (hl : l.length = 5) :
    (ordG ["A", "B"] [gnRef, offsetCal] [v0, v1, v2, v3] k0 k1 l).Solves (ordCase ["A", "B"] [gnRef, offsetCal] [v0, v1, v2, v3] k0 k1) :=
  ⟨ordG_norm _ _ _ _ _ _ _, by simpa [ordG, ordCase] using hl, rfl, by simp [ordG, ordCase]⟩

theorem ordG_inj (v0 v1 v2 v3 k0 k1 : ℝ) {l : List ℝ} (hl : l.length = 5) : ∀ x : List ℝ, x.length = 4 + 1 →
    (ordG ["A", "B"] [gnRef, offsetCal] [v0, v1, v2, v3] k0 k1 l).getJPx x = .ok (List.replicate (4 + 2) 0) → x = List.replicate x.length 0 := by
  obtain ⟨y0, y1, y2, y3, y4, rfl⟩ := length5 hl
  intro x hx h0
  obtain ⟨z0, z1, z2, z3, z4, rfl⟩ := length5 hx
  have h0' := h0.symm.trans (ordG_getJPx v0 v1 v2 v3 k0 k1 y0 y1 y2 y3 y4 z0 z1 z2 z3 z4)
  simp only [List.replicate, Except.ok.injEq, List.cons.injEq, and_true] at h0'
  obtain ⟨e0, e1, e2, e3, e4, e5⟩ := h0'
  subst e0; subst e1; subst e2; subst e3
  norm_num at e4
  subst e4
  rfl

theorem ordG_smooth {v0 v1 v2 v3 k0 k1 : ℝ} {l : List ℝ} (hl : l.length = 5)
    (hready : (ordCase ["A", "B"] [gnRef, offsetCal] [v0, v1, v2, v3] k0 k1).SolverReady ["B"] [] 1) :
    (ordG ["A", "B"] [gnRef, offsetCal] [v0, v1, v2, v3] k0 k1 l).Smooth (ordCase ["A", "B"] [gnRef, offsetCal] [v0, v1, v2, v3] k0 k1) ["B"] [] := by
  have hS := ordG_solves v0 v1 v2 v3 k0 k1 hl
  obtain ⟨N, n, hs⟩ := hS.setup hready
  obtain ⟨y0, y1, y2, y3, y4, rfl⟩ := length5 hl
  intro i k pair hp hk
  rcases i with _ | _ | i
  · cases hp; cases hk
    exact ⟨by
      refine ⟨"A", 1, gnRef, defaultAdjustment, _, fun x => x, fun _ => 1, rfl, rfl, rfl, rfl,
        ready_unconvert hready hs.facts rfl rfl rfl (by rw [hs.xlen]; omega), fun R => by simp [defaultAdjustment], .inr ⟨gnRef_reference _ _, ?_, fun r _ => hasDerivAt_id _⟩⟩
      intro b c u hb hu
      have hb4 : u ∈ List.replicate 4 ({ unc := .independent [1], uS_i := none } : UncBlock ℝ) := List.mem_of_getElem? hu
      rw [(List.mem_replicate.1 hb4).2]
      rfl, by
      refine ⟨"B", 1, offsetCal, defaultAdjustment, _, fun x => x, fun _ => 1, rfl, rfl, rfl, rfl,
        ready_unconvert hready hs.facts rfl rfl rfl (by rw [hs.xlen]; omega), fun R => by simp [defaultAdjustment], .inl ⟨_, _, offsetCal_pointwise _, ?_⟩⟩
      intro r _
      exact ⟨offset_gradient _ _ (by simp [rowOf]) rfl, hasDerivAt_id _⟩⟩
  · cases hp; cases hk
    exact ⟨by
      refine ⟨"B", 1, offsetCal, defaultAdjustment, _, fun x => x, fun _ => 1, rfl, rfl, rfl, rfl,
        ready_unconvert hready hs.facts rfl rfl rfl (by rw [hs.xlen]; omega), fun R => by simp [defaultAdjustment], .inl ⟨_, _, offsetCal_pointwise _, ?_⟩⟩
      intro r _
      exact ⟨offset_gradient _ _ (by simp [rowOf]) rfl, hasDerivAt_id _⟩, by
      refine ⟨"A", 1, gnRef, defaultAdjustment, _, fun x => x, fun _ => 1, rfl, rfl, rfl, rfl,
        ready_unconvert hready hs.facts rfl rfl rfl (by rw [hs.xlen]; omega), fun R => by simp [defaultAdjustment], .inr ⟨gnRef_reference _ _, ?_, fun r _ => hasDerivAt_id _⟩⟩
      intro b c u hb hu
      have hb4 : u ∈ List.replicate 4 ({ unc := .independent [1], uS_i := none } : UncBlock ℝ) := List.mem_of_getElem? hu
      rw [(List.mem_replicate.1 hb4).2]
      rfl⟩
  · simp [ordCase, ordIdx] at hp

theorem ordG_solves' (v0 v1 v2 v3 k0 k1 : ℝ) {l : List ℝ} (hl : l.length = 5) :
    (ordG ["B", "A"] [offsetCal, gnRef] [v0, v1, v2, v3] k0 k1 l).Solves (ordCase ["B", "A"] [offsetCal, gnRef] [v0, v1, v2, v3] k0 k1) :=
  ⟨ordG_norm' _ _ _ _ _ _ _, by simpa [ordG, ordCase] using hl, rfl, by simp [ordG, ordCase]⟩

theorem ordG_inj' (v0 v1 v2 v3 k0 k1 : ℝ) {l : List ℝ} (hl : l.length = 5) : ∀ x : List ℝ, x.length = 4 + 1 →
    (ordG ["B", "A"] [offsetCal, gnRef] [v0, v1, v2, v3] k0 k1 l).getJPx x = .ok (List.replicate (4 + 2) 0) → x = List.replicate x.length 0 := by
  obtain ⟨y0, y1, y2, y3, y4, rfl⟩ := length5 hl
  intro x hx h0
  obtain ⟨z0, z1, z2, z3, z4, rfl⟩ := length5 hx
  have h0' := h0.symm.trans (ordG_getJPx' v0 v1 v2 v3 k0 k1 y0 y1 y2 y3 y4 z0 z1 z2 z3 z4)
  simp only [List.replicate, Except.ok.injEq, List.cons.injEq, and_true] at h0'
  obtain ⟨e0, e1, e2, e3, e4, e5⟩ := h0'
  subst e0; subst e1; subst e2; subst e3
  norm_num at e4
  subst e4
  rfl

theorem ordG_smooth' {v0 v1 v2 v3 k0 k1 : ℝ} {l : List ℝ} (hl : l.length = 5)
    (hready : (ordCase ["B", "A"] [offsetCal, gnRef] [v0, v1, v2, v3] k0 k1).SolverReady ["B"] [] 1) :
    (ordG ["B", "A"] [offsetCal, gnRef] [v0, v1, v2, v3] k0 k1 l).Smooth (ordCase ["B", "A"] [offsetCal, gnRef] [v0, v1, v2, v3] k0 k1) ["B"] [] := by
  have hS := ordG_solves' v0 v1 v2 v3 k0 k1 hl
  obtain ⟨N, n, hs⟩ := hS.setup hready
  obtain ⟨y0, y1, y2, y3, y4, rfl⟩ := length5 hl
  intro i k pair hp hk
  rcases i with _ | _ | i
  · cases hp; cases hk
    exact ⟨by
      refine ⟨"B", 1, offsetCal, defaultAdjustment, _, fun x => x, fun _ => 1, rfl, rfl, rfl, rfl,
        ready_unconvert hready hs.facts rfl rfl rfl (by rw [hs.xlen]; omega), fun R => by simp [defaultAdjustment], .inl ⟨_, _, offsetCal_pointwise _, ?_⟩⟩
      intro r _
      exact ⟨offset_gradient _ _ (by simp [rowOf]) rfl, hasDerivAt_id _⟩, by
      refine ⟨"A", 1, gnRef, defaultAdjustment, _, fun x => x, fun _ => 1, rfl, rfl, rfl, rfl,
        ready_unconvert hready hs.facts rfl rfl rfl (by rw [hs.xlen]; omega), fun R => by simp [defaultAdjustment], .inr ⟨gnRef_reference _ _, ?_, fun r _ => hasDerivAt_id _⟩⟩
      intro b c u hb hu
      have hb4 : u ∈ List.replicate 4 ({ unc := .independent [1], uS_i := none } : UncBlock ℝ) := List.mem_of_getElem? hu
      rw [(List.mem_replicate.1 hb4).2]
      rfl⟩
  · cases hp; cases hk
    exact ⟨by
      refine ⟨"A", 1, gnRef, defaultAdjustment, _, fun x => x, fun _ => 1, rfl, rfl, rfl, rfl,
        ready_unconvert hready hs.facts rfl rfl rfl (by rw [hs.xlen]; omega), fun R => by simp [defaultAdjustment], .inr ⟨gnRef_reference _ _, ?_, fun r _ => hasDerivAt_id _⟩⟩
      intro b c u hb hu
      have hb4 : u ∈ List.replicate 4 ({ unc := .independent [1], uS_i := none } : UncBlock ℝ) := List.mem_of_getElem? hu
      rw [(List.mem_replicate.1 hb4).2]
      rfl, by
      refine ⟨"B", 1, offsetCal, defaultAdjustment, _, fun x => x, fun _ => 1, rfl, rfl, rfl, rfl,
        ready_unconvert hready hs.facts rfl rfl rfl (by rw [hs.xlen]; omega), fun R => by simp [defaultAdjustment], .inl ⟨_, _, offsetCal_pointwise _, ?_⟩⟩
      intro r _
      exact ⟨offset_gradient _ _ (by simp [rowOf]) rfl, hasDerivAt_id _⟩⟩
  · simp [ordCase, ordIdx] at hp

/-- File 1 has a match-up of A with B, file 2 one of B with A. -/
noncomputable def ordF1 (a b k : ℝ) : Dataset ℝ := oneFile (oneSide "A" a) (oneSide "B" b) k
noncomputable def ordF2 (b a k : ℝ) : Dataset ℝ := oneFile (oneSide "B" b) (oneSide "A" a) k

theorem offsetCal_calibrated (c : List ℝ) : (offsetCal : SensorModel ℝ Int).Calibrated 1 c 1 := by
  intro X a xt al t k hX hk _
  obtain ⟨x0, rfl⟩ := List.length_eq_one_iff.1 hX
  have h0 := hk x0 (by simp)
  exact ⟨_, _, rfl, by simp [h0], rfl, by simp [h0]⟩

theorem ord_solvable (a1 b1 k1 b2 a2 k2 : ℝ) : SolvableFiles [ordF1 a1 b1 k1, ordF2 b2 a2 k2] (offsetModels : SensorData ℝ (SensorModel ℝ Int) (AdjModel ℝ)) 1 := by
  have side : ∀ d ∈ [ordF1 a1 b1 k1, ordF2 b2 a2 k2], ∀ s, d.HasSide s → s.m = 1 ∧ (∀ c, s.utype c = 1) ∧ (s.name = "A" ∨ s.name = "B") := by
    intro d hd s hs
    simp only [List.mem_cons, List.not_mem_nil, or_false] at hd
    rcases hd with rfl | rfl <;> rcases hs with rfl | rfl
    · exact ⟨rfl, fun _ => rfl, .inl rfl⟩
    · exact ⟨rfl, fun _ => rfl, .inr rfl⟩
    · exact ⟨rfl, fun _ => rfl, .inr rfl⟩
    · exact ⟨rfl, fun _ => rfl, .inl rfl⟩
  refine ⟨⟨?_, ?_⟩, ?_, ?_, ⟨_, List.mem_cons_self, _, .inl rfl, rfl⟩, ?_, ?_⟩
  · intro d hd
    simp only [List.mem_cons, List.not_mem_nil, or_false] at hd
    rcases hd with rfl | rfl
    · show "A" ≠ "B"; decide
    · show "B" ≠ "A"; decide
  · intro d hd e he s hs t ht _
    have hs' : d.HasSide s := by simpa [Dataset.HasSide] using hs
    have ht' : e.HasSide t := by simpa [Dataset.HasSide] using ht
    rw [(side d hd s hs').1, (side e he t ht').1]
  · show ["A", "B"].Nodup; decide
  · intro d hd s hs
    rw [(side d hd s hs).1]
    exact ⟨le_rfl, le_rfl⟩
  · intro d hd s hs c W U _ ht
    rw [(side d hd s hs).2.1] at ht
    omega
  · intro d hd s hs e he
    obtain ⟨h1, h2, h3⟩ := side d hd s hs
    have hAB : "A" ≠ "B" := by decide
    rcases h3 with h3 | h3
    · rw [h3] at he
      simp only [offsetModels, List.mem_cons, Prod.mk.injEq, true_and, hAB, false_and, List.not_mem_nil, or_false] at he
      subst he
      exact ⟨(by intro B hB; cases hB), .inr ⟨gnRef_reference _ _, fun c _ => .inl (h2 c)⟩⟩
    · rw [h3] at he
      simp only [offsetModels, List.mem_cons, Prod.mk.injEq, true_and, hAB.symm, false_and, List.not_mem_nil, or_false, false_or] at he
      subst he
      exact ⟨(by intro B hB; cases hB), .inl ⟨offsetCal_calibrated _, h1, by simp⟩⟩

theorem cenv_enum : EnumOk (cenv : ReadEnv ℝ Int).enumNat := qenv_enum

theorem ord_ready (a1 b1 k1 b2 a2 k2 : ℝ) : (ordCase ["A", "B"] [gnRef, offsetCal] [a1, b1, b2, a2] k1 k2).SolverReady ["B"] [] 1 ∧
    (ordCase ["B", "A"] [offsetCal, gnRef] [b2, a2, a1, b1] k2 k1).SolverReady ["B"] [] 1 := by
  have hf := ord_solvable a1 b1 k1 b2 a2 k2
  obtain ⟨l, c, h⟩ := opened_solverReady cenv_enum hf (ord_opens a1 b1 a2 b2 k1 k2)
  obtain ⟨l', c', h'⟩ := opened_solverReady cenv_enum (hf.perm (List.Perm.swap _ _ _)) (ord_opens' a1 b1 a2 b2 k1 k2)
  have e1 : some ["B"] = some l := h.parameters.1
  have e2 : some [] = some c := h.constants
  have e1' : some ["B"] = some l' := h'.parameters.1
  have e2' : some [] = some c' := h'.constants
  have e3 := Option.some.inj e1
  have e4 := Option.some.inj e2
  have e3' := Option.some.inj e1'
  have e4' := Option.some.inj e2'
  subst e3 e4 e3' e4'
  exact ⟨h, h'⟩

theorem ord_derivatives (v0 v1 v2 v3 k0 k1 w0 w1 w2 w3 b : ℝ) : (ordCase ["A", "B"] [gnRef, offsetCal] [v0, v1, v2, v3] k0 k1).KDerivatives [w0, w1, w2, w3] [b]
    (fun i c _ => if i = 0 ∧ c = 0 then -1 else if i = 1 ∧ c = 3 then 1 else 0) (fun i _ => if i = 0 then 1 else -1) := by
  intro dv da hdv hda
  obtain ⟨d0, d1, d2, d3, rfl⟩ : ∃ d0 d1 d2 d3, dv = [d0, d1, d2, d3] := by
    match dv, hdv with
    | [d0, d1, d2, d3], _ => exact ⟨d0, d1, d2, d3, rfl⟩
  obtain ⟨e, rfl⟩ := List.length_eq_one_iff.1 hda
  refine ⟨fun t => [(b + t * e) - (w0 + t * d0), (w3 + t * d3) - (b + t * e)], fun t => ord_kOf _ _ _ _ _ _ _ _ _ _ _, ?_⟩
  intro i hi
  rcases i with _ | _ | i
  · refine ((affine_deriv b e).fun_sub (affine_deriv w0 d0)).congr_deriv ?_
    simp [MatchUp.pairing, MatchUp.numBlocks, MatchUp.blockLen, MatchUp.elem, ordCase, ordIdx, Finset.sum_range_succ]
    ring
  · refine ((affine_deriv w3 d3).fun_sub (affine_deriv b e)).congr_deriv ?_
    simp [MatchUp.pairing, MatchUp.numBlocks, MatchUp.blockLen, MatchUp.elem, ordCase, ordIdx, Finset.sum_range_succ]
    ring
  · simp [ordCase] at hi

end Fixture
open Fixture

/-- **C93, a case.** A file with a match-up of a reference A with B and a file with one of B with A, in both orders: the sensors are numbered differently, all hypotheses of
`C93_covariance_partial` are met at corresponding estimates, and the reported covariance matrices are equal. -/
theorem C93_case (a1 b1 k1 b2 a2 k2 y0 y1 y2 y3 y4 : ℝ) : ∃ (ms ms' : Evaluable ℝ Int) (g g' : GN ℝ Int) (est est' : Evaluable ℝ Int) (σ : Nat → Nat) (minres : GN ℝ Int → List ℝ → Py (List ℝ))
    (V V' : List (List ℝ)), openMatchUpWith cenv defaultAdjustment [ordF1 a1 b1 k1, ordF2 b2 a2 k2] offsetModels = .ok ms ∧
    openMatchUpWith cenv defaultAdjustment [ordF2 b2 a2 k2, ordF1 a1 b1 k1] offsetModels = .ok ms' ∧ ms.mu.idx.sensors = ["A", "B"] ∧ ms'.mu.idx.sensors = ["B", "A"] ∧
    ms.mu.Normalisable ∧ Reordered [ordF1 a1 b1 k1, ordF2 b2 a2 k2] [ordF2 b2 a2 k2, ordF1 a1 b1 k1] σ ∧ σ 0 = 1 ∧ g.Solves ms ∧ g'.Solves ms' ∧ g.xyza = [y0, y1, y2, y3, y4] ∧
    g.EstimateIs est ∧ g'.EstimateIs est' ∧ SameEstimates [ordF1 a1 b1 k1, ordF2 b2 a2 k2] [ordF2 b2 a2 k2, ordF1 a1 b1 k1] σ ms.mu ms'.mu est.mu.values est'.mu.values ∧
    g.covariance minres = .ok V ∧ g'.covariance minres = .ok V' ∧ (V'.getD 0 []).getD 0 0 = (V.getD 0 []).getD 0 0 := by
  classical
  have hf := ord_solvable a1 b1 k1 b2 a2 k2
  have h : openMatchUpWith cenv defaultAdjustment [ordF1 a1 b1 k1, ordF2 b2 a2 k2] offsetModels = .ok _ := ord_opens a1 b1 a2 b2 k1 k2
  have h' : openMatchUpWith cenv defaultAdjustment [ordF2 b2 a2 k2, ordF1 a1 b1 k1] offsetModels = .ok _ := ord_opens' a1 b1 a2 b2 k1 k2
  obtain ⟨hr, hr'⟩ := ord_ready a1 b1 k1 b2 a2 k2
  have hp : [ordF1 a1 b1 k1, ordF2 b2 a2 k2].Perm [ordF2 b2 a2 k2, ordF1 a1 b1 k1] := List.Perm.swap _ _ _
  have hσ : Reordered [ordF1 a1 b1 k1, ordF2 b2 a2 k2] [ordF2 b2 a2 k2, ordF1 a1 b1 k1] (fun i => 1 - i) := by
    refine ⟨rfl, ?_, ?_, ?_⟩
    · intro i hi
      show 1 - i < 2
      omega
    · intro i j hi hj he
      have hi' : i < 2 := hi
      have hj' : j < 2 := hj
      have he' : 1 - i = 1 - j := he
      omega
    · intro i hi
      rcases i with _ | _ | i
      · rfl
      · rfl
      · exact absurd hi (by simp)
  have hn : (ordCase ["A", "B"] [gnRef, offsetCal] [a1, b1, b2, a2] k1 k2).mu.Normalisable := by
    refine ⟨hr.wf, rfl, rfl, ?_, ?_⟩
    · intro b n u hu hb
      have hb4 : u ∈ List.replicate 4 ({ unc := .independent [1], uS_i := none } : UncBlock ℝ) := List.mem_of_getElem? hu
      have hn1 : n ∈ List.replicate 4 1 := List.mem_of_getElem? hb
      rw [(List.mem_replicate.1 hb4).2, (List.mem_replicate.1 hn1).2]
      exact .inl ⟨[1], rfl, by simp, .inl rfl⟩
    · simp [ordCase]
  have hg := ordG_solves a1 b1 b2 a2 k1 k2 (l := [y0, y1, y2, y3, y4]) rfl
  have hg0 := ordG_solves' b2 a2 a1 b1 k2 k1 (l := [y0, y1, y2, y3, y4]) rfl
  obtain ⟨N, n, hs⟩ := hg.setup hr
  obtain ⟨t1, t2, t3⟩ := hs.sizes
  obtain ⟨est, hest0, _⟩ := estimate_ok hs hs.xlen
  have hest : (ordG ["A", "B"] [gnRef, offsetCal] [a1, b1, b2, a2] k1 k2 [y0, y1, y2, y3, y4]).EstimateIs est := by
    unfold GN.EstimateIs
    rw [t1, t3]
    exact hest0
  obtain ⟨x, est', hg', hest', hsame, hpar⟩ := C93_corresponding cenv_enum hp hσ hf h h' hn hg hg0 hest
  have hxl : x.length = 5 := hg'.xyza
  have hg'' : ({ ordG ["B", "A"] [offsetCal, gnRef] [b2, a2, a1, b1] k2 k1 [y0, y1, y2, y3, y4] with xyza := x } : GN ℝ Int) =
    ordG ["B", "A"] [offsetCal, gnRef] [b2, a2, a1, b1] k2 k1 x := rfl
  rw [hg''] at hg' hest'
  let minres : GN ℝ Int → List ℝ → Py (List ℝ) := fun g b => if h : ∃ z, z.length = b.length ∧ g.calcHx z = .ok b then .ok h.choose else .error .nonFinite
  have hsolve : ∀ b, b.length = 5 → ∃ z, minres (ordG ["A", "B"] [gnRef, offsetCal] [a1, b1, b2, a2] k1 k2 [y0, y1, y2, y3, y4]) b = .ok z ∧ z.length = b.length ∧
      (ordG ["A", "B"] [gnRef, offsetCal] [a1, b1, b2, a2] k1 k2 [y0, y1, y2, y3, y4]).calcHx z = .ok b := by
    intro b hb
    have h := (C31_solvable hr hg (ordG_inj a1 b1 b2 a2 k1 k2 (l := [y0, y1, y2, y3, y4]) rfl) b hb).exists
    exact ⟨h.choose, dif_pos h, h.choose_spec⟩
  have hsolve' : ∀ b, b.length = 5 → ∃ z, minres (ordG ["B", "A"] [offsetCal, gnRef] [b2, a2, a1, b1] k2 k1 x) b = .ok z ∧ z.length = b.length ∧
      (ordG ["B", "A"] [offsetCal, gnRef] [b2, a2, a1, b1] k2 k1 x).calcHx z = .ok b := by
    intro b hb
    have h := (C31_solvable hr' hg' (ordG_inj' b2 a2 a1 b1 k2 k1 hxl) b hb).exists
    exact ⟨h.choose, dif_pos h, h.choose_spec⟩
  have hSm : ∀ v : List ℝ, v.length = 1 → matTVec ([[1]] : List (List ℝ)) v = .ok (List.replicate 1 0) → v = List.replicate 1 0 := by
    intro v hv h0
    obtain ⟨v0, rfl⟩ := List.length_eq_one_iff.1 hv
    have e : matTVec [[1]] [v0] = .ok [1 * v0 + 0] := rfl
    have := h0.symm.trans e
    simp at this
    subst this
    rfl
  obtain ⟨l1, _⟩ := estimate_lengths hr hn hg hest
  have hid : ∀ B A, (ordCase ["A", "B"] [gnRef, offsetCal] [a1, b1, b2, a2] k1 k2).KDerivatives est.mu.values [y4] B A → Identifies A 2 1 := by
    intro B A hBA
    obtain ⟨w0, w1, w2, w3, hw⟩ : ∃ w0 w1 w2 w3, est.mu.values = [w0, w1, w2, w3] := by
      have hl : est.mu.values.length = 4 := l1
      match est.mu.values, hl with
      | [w0, w1, w2, w3], _ => exact ⟨w0, w1, w2, w3, rfl⟩
    rw [hw] at hBA
    have := (C88_unique (i := 0) rfl hBA (ord_derivatives a1 b1 b2 a2 k1 k2 w0 w1 w2 w3 y4) (show 0 < 2 by omega)).2 0 (show 0 < 1 by omega)
    intro d hd j hj
    have h0 := hd 0 (by omega)
    have : j = 0 := by omega
    subst this
    simp only [Finset.sum_range_one] at h0
    rw [‹A 0 0 = _›] at h0
    simpa using h0
  obtain ⟨_, V, V', v1, v1', v2⟩ := C93_covariance_partial cenv_enum hp hσ hf h h' hn hr hg hg' (ordG_smooth rfl hr) (ordG_smooth' hxl hr') hest hest' hsame hpar hid hSm hSm minres hsolve hsolve'
  exact ⟨_, _, _, _, est, est', _, minres, V, V', h, h', rfl, rfl, hn, hσ, rfl, hg, hg', rfl, hest, hest', hsame, v1, v1', v2 0 0 (show 0 < 1 by omega) (show 0 < 1 by omega)⟩
end Verif
