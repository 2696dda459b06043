import Verif.Lemmas.Blind
import Verif.Props.Objective
import Mathlib.LinearAlgebra.FiniteDimensional.Basic
/-
C85: the declared covariance can be inverted; a run stays on the estimates whose cost is the objective.
-/
set_option autoImplicit false
namespace Verif
open Finset (sum_congr)
variable {α δ : Type}

section
variable [Field α] [LinearOrder α] [IsStrictOrderedRing α]

/-- Values with given elements. -/
theorem exists_values (mu : MatchUp α δ) (y : Nat → Nat → α) : ∃ v : List α, v.length = mu.idx.N_var.sum ∧ ∀ p ∈ mu.positions, mu.elem v p.1 p.2 = y p.1 p.2 := by
  obtain ⟨data, hdata⟩ : ∃ data, data = (List.range mu.numBlocks).map fun b => vector (mu.blockLen b) (y b) := ⟨_, rfl⟩
  have hl : data.map List.length = mu.idx.N_var := by
    rw [hdata, List.map_map]
    apply List.ext_getElem
    · simp [MatchUp.numBlocks]
    · intro i h1 h2
      simp [MatchUp.blockLen, List.getD, h2]
  refine ⟨data.flatten, by rw [List.length_flatten, hl], fun p hp => ?_⟩
  obtain ⟨h1, h2⟩ := mem_positions hp
  have hb : data[p.1]? = some (vector (mu.blockLen p.1) (y p.1)) := by
    have : p.1 < mu.numBlocks := (List.getElem?_eq_some_iff.1 h1).1
    rw [hdata]; simp [this]
  have h3 := slice_flatten data hb
  rw [hl, take_succ_sum _ h1] at h3
  exact elem_of_slice h3 h2

/-- The solver's un-normalisation reaches all values. -/
theorem root_onto {ms : Evaluable α δ} {labels clabels : List String} {m : Nat} (h : ms.SolverReady labels clabels m) (hn : ms.mu.Normalisable) {v : List α}
    (hv : v.length = ms.mu.values.length) : ∃ (T : Nat) (M : (Σ _ : Nat, Nat) → Nat → α) (x : Nat → α),
      (∀ p ∈ ms.mu.positions, ∀ p' ∈ ms.mu.positions, ms.mu.declaredCov p.1 p.2 p'.1 p'.2 = ∑ j ∈ Finset.range T, M p j * M p' j) ∧
      ∀ p ∈ ms.mu.positions, ms.mu.elem v p.1 p.2 = ∑ j ∈ Finset.range T, M p j * x j := by
  obtain ⟨ms', hms⟩ : ∃ ms' : Evaluable α δ, ms' = { ms with mu := { ms.mu with values := v } } := ⟨_, rfl⟩
  have hwf : ms'.mu.WF := by
    rw [hms]
    exact { h.wf with values := hv.trans h.wf.values }
  have h' : ms'.SolverReady labels clabels m := by
    have := hwf
    rw [hms] at this ⊢
    exact { h with wf := this }
  have hn' : ms'.mu.Normalisable := by
    have := hwf
    rw [hms] at this ⊢
    exact { hn with wf := this }
  obtain ⟨nm, mu2, f1, f2, f3, _⟩ := C24_roundtrip_partial hn'
  have hg : (⟨{ ms' with mu := nm }, nm.values ++ ms'.a, List.replicate ms'.a.length (List.replicate ms'.a.length 0)⟩ : GN α δ).Solves ms' :=
    { norm := by
        show (do let q ← transformRun ms'.mu; Pure.pure _ : Py _) = _
        rw [f1]; rfl
      xyza := by simp
      rows := by simp
      cols := by
        intro r hr
        obtain ⟨_, rfl⟩ := List.mem_replicate.1 hr
        simp }
  generalize (⟨{ ms' with mu := nm }, nm.values ++ ms'.a, List.replicate ms'.a.length (List.replicate ms'.a.length 0)⟩ : GN α δ) = g at hg
  obtain ⟨N, n, hs⟩ := hg.setup h'
  obtain ⟨s1, s2, s3⟩ := hs.sizes
  obtain ⟨f, hf, _⟩ := calcF_total hs hs.xlen
  obtain ⟨_, _, _, _, _, _, _, h6, _⟩ := objective_parts hs hg.norm hn' hs.xlen hf
  have hd := root_gram hs
  refine ⟨N.sum + n, g.root ms' (N.sum + n) n, ent g.hd.mu.values, ?_, ?_⟩
  · rw [hms] at hd ⊢
    exact hd
  · rw [hms] at h6 ⊢
    exact h6

/-- **C85, the declared covariance is positive definite.** -/
theorem cov_definite {ms : Evaluable α δ} {labels clabels : List String} {m : Nat} (h : ms.SolverReady labels clabels m) (hn : ms.mu.Normalisable) (y : Nat → Nat → α) :
    0 ≤ ms.mu.pairing y (ms.mu.covMul y) ∧ (ms.mu.pairing y (ms.mu.covMul y) = 0 → ∀ p ∈ ms.mu.positions, y p.1 p.2 = 0) := by
  obtain ⟨v, hv1, hv2⟩ := exists_values ms.mu y
  obtain ⟨T, M, x, h1, h2⟩ := root_onto h hn (hv1.trans h.wf.values.symm)
  have hq : ms.mu.pairing y (ms.mu.covMul y) = ∑ j ∈ Finset.range T, (∑ p ∈ ms.mu.positions, M p j * y p.1 p.2) * ∑ p ∈ ms.mu.positions, M p j * y p.1 p.2 := by
    rw [pairing_eq, ← pair_apply (P := ms.mu.positions) (M := M) (fun p => y p.1 p.2)]
    refine sum_congr rfl fun p hp => ?_
    rw [covMul_eq, gram_apply (V := fun p p' => ms.mu.declaredCov p.1 p.2 p'.1 p'.2) (M := M) h1 (fun p => y p.1 p.2) hp]
  refine ⟨by rw [hq]; exact Finset.sum_nonneg fun _ _ => mul_self_nonneg _, fun h0 p hp => ?_⟩
  rw [hq, Finset.sum_eq_zero_iff_of_nonneg fun _ _ => mul_self_nonneg _] at h0
  have h3 : ∑ p ∈ ms.mu.positions, y p.1 p.2 * y p.1 p.2 = 0 := by
    have : ∑ p ∈ ms.mu.positions, y p.1 p.2 * y p.1 p.2 = ∑ p ∈ ms.mu.positions, y p.1 p.2 * ∑ j ∈ Finset.range T, M p j * x j :=
      sum_congr rfl fun p hp => by rw [← h2 p hp, hv2 p hp]
    rw [this, pair_apply (P := ms.mu.positions) (M := M) (fun p => y p.1 p.2)]
    refine Finset.sum_eq_zero fun j hj => ?_
    rw [mul_self_eq_zero.1 (h0 j hj), zero_mul]
  rw [Finset.sum_eq_zero_iff_of_nonneg fun _ _ => mul_self_nonneg _] at h3
  exact mul_self_eq_zero.1 (h3 p hp)

/-- **C85, the objective is well defined.** For files whose uncertainties can be normalised, every array of residuals has exactly one weighted sum of squares; it is not negative,
and zero only for residuals which are all zero. -/
theorem C85_definite {ms : Evaluable α δ} {labels clabels : List String} {m : Nat} (h : ms.SolverReady labels clabels m) (hn : ms.mu.Normalisable) {d : List α}
    (hd : d.length = ms.mu.values.length) : ∃ q, ms.mu.WeightedSq d q ∧ (∀ q', ms.mu.WeightedSq d q' → q' = q) ∧ 0 ≤ q ∧ (q = 0 ↔ ∀ e ∈ d, e = 0) := by
  classical
  obtain ⟨V, hV⟩ : ∃ V : (ms.mu.positions → α) →ₗ[α] (ms.mu.positions → α), ∀ z p, V z p = ∑ p' : ms.mu.positions, ms.mu.declaredCov p.1.1 p.1.2 p'.1.1 p'.1.2 * z p' :=
    ⟨Matrix.mulVecLin fun p p' => ms.mu.declaredCov p.1.1 p.1.2 p'.1.1 p'.1.2, fun z p => rfl⟩
  obtain ⟨ext, hext⟩ : ∃ ext : (ms.mu.positions → α) → Nat → Nat → α, ext = fun z b r => if hp : (⟨b, r⟩ : Σ _ : Nat, Nat) ∈ ms.mu.positions then z ⟨_, hp⟩ else 0 := ⟨_, rfl⟩
  have hextp : ∀ z (p : ms.mu.positions), ext z p.1.1 p.1.2 = z p := by
    intro z p
    rw [hext]
    exact dif_pos p.2
  have hcov : ∀ z (p : ms.mu.positions), ms.mu.covMul (ext z) p.1.1 p.1.2 = V z p := by
    intro z p
    rw [covMul_eq, hV, ← Finset.sum_coe_sort ms.mu.positions (fun p' => ms.mu.declaredCov p.1.1 p.1.2 p'.1 p'.2 * ext z p'.1 p'.2)]
    exact sum_congr rfl fun p' _ => by rw [hextp]
  have hinj : Function.Injective V := by
    rw [injective_iff_map_eq_zero]
    intro z hz
    funext p
    have h1 := (cov_definite h hn (ext z)).2 (by
      rw [pairing_eq]
      refine Finset.sum_eq_zero fun p hp => ?_
      rw [hcov z ⟨p, hp⟩, hz]
      exact mul_zero _) p.1 p.2
    rw [hextp] at h1
    exact h1
  obtain ⟨z, hz⟩ := (LinearMap.injective_iff_surjective.1 hinj) fun p => ms.mu.elem d p.1.1 p.1.2
  have hsol : ∀ b r, b < ms.mu.numBlocks → r < ms.mu.blockLen b → ms.mu.covMul (ext z) b r = ms.mu.elem d b r := by
    intro b r h1 h2
    rw [hcov z ⟨⟨b, r⟩, positions_mem h1 h2⟩, hz]
  have hq : ∀ y, (∀ b r, b < ms.mu.numBlocks → r < ms.mu.blockLen b → ms.mu.covMul y b r = ms.mu.elem d b r) → ms.mu.pairing y (ms.mu.elem d) = ms.mu.pairing y (ms.mu.covMul y) := by
    intro y hy
    rw [pairing_eq, pairing_eq]
    refine sum_congr rfl fun p hp => ?_
    obtain ⟨q1, q2⟩ := mem_positions hp
    rw [hy _ _ (List.getElem?_eq_some_iff.1 q1).1 q2]
  obtain ⟨hnn, hzero⟩ := cov_definite h hn (ext z)
  refine ⟨_, ⟨ext z, hsol, rfl⟩, ?_, by rw [hq _ hsol]; exact hnn, ?_⟩
  · rintro q' ⟨y, hy, rfl⟩
    have hyz : ∀ p ∈ ms.mu.positions, y p.1 p.2 = ext z p.1 p.2 := by
      intro p hp
      have hVy : V (fun p => y p.1.1 p.1.2) = V z := by
        funext p
        rw [hz, hV]
        obtain ⟨q1, q2⟩ := mem_positions p.2
        show _ = ms.mu.elem d p.1.1 p.1.2
        rw [← hy _ _ (List.getElem?_eq_some_iff.1 q1).1 q2, covMul_eq]
        exact Finset.sum_coe_sort ms.mu.positions (fun p' => ms.mu.declaredCov p.1.1 p.1.2 p'.1 p'.2 * y p'.1 p'.2)
      have := congrFun (hinj hVy) ⟨p, hp⟩
      rw [hextp z ⟨p, hp⟩]
      exact this
    rw [pairing_eq, pairing_eq]
    exact sum_congr rfl fun p hp => by rw [hyz p hp]
  · constructor
    · intro h0
      rw [hq _ hsol] at h0
      have hz0 := hzero h0
      intro e he
      obtain ⟨i, hi, rfl⟩ := List.getElem_of_mem he
      have hdz : d = List.replicate d.length 0 := by
        refine slices_eq (N := ms.mu.idx.N_var) (by rw [hd, h.wf.values]) (by rw [List.length_replicate, hd, h.wf.values]) ?_
        intro b c hc
        have hle : (ms.mu.idx.N_var.take b).sum + c ≤ d.length := by
          have q1 := take_succ_sum _ hc
          have q2 := take_sum_le_take_sum ms.mu.idx.N_var (show b + 1 ≤ ms.mu.idx.N_var.length from (List.getElem?_eq_some_iff.1 hc).1)
          rw [List.take_length, ← h.wf.values] at q2
          omega
        rw [slice_eq_vector (by omega), slice_eq_vector (by rw [List.length_replicate]; omega), Nat.add_sub_cancel_left]
        refine vector_congr fun r hr => ?_
        have hbl : ms.mu.blockLen b = c := by simp [MatchUp.blockLen, List.getD, hc]
        have hb : b < ms.mu.numBlocks := (List.getElem?_eq_some_iff.1 hc).1
        have hs := hsol b r hb (by rw [hbl]; exact hr)
        rw [covMul_eq, Finset.sum_eq_zero fun p hp => by rw [hz0 p hp, mul_zero]] at hs
        have h1 : ent d ((ms.mu.idx.N_var.take b).sum + r) = 0 := hs.symm
        rw [h1]
        unfold ent
        simp only [List.getD]
        rw [List.getElem?_replicate]
        split <;> rfl
      have : d[i]? = some 0 := by rw [hdz, List.getElem?_replicate, if_pos hi]
      rw [List.getElem?_eq_getElem hi] at this
      exact Option.some.inj this
    · intro h0
      have he : ∀ b r, ms.mu.elem d b r = 0 := by
        intro b r
        unfold MatchUp.elem
        simp only [List.getD]
        cases hc : d[(ms.mu.idx.N_var.take b).sum + r]? with
        | none => rfl
        | some e => exact h0 e (List.mem_of_getElem? hc)
      rw [pairing_eq]
      exact Finset.sum_eq_zero fun p _ => by rw [he, mul_zero]

/-! ### Runs -/

/-- The estimate differs from the data, and the vector held by the solver object is, orthogonal to a direction which changes no value. -/
def GN.Orthogonal (g : GN α δ) (T : Nat) (κ : Nat → α) (x : List α × Option (List α)) : Prop :=
  ∑ c ∈ Finset.range T, (ent x.1 c - ent g.hd.mu.values c) * κ c = 0 ∧ ∀ w, x.2 = some w → ∑ c ∈ Finset.range T, ent w c * κ c = 0

theorem step_orthogonal {g : GN α δ} {ms : Evaluable α δ} {labels clabels : List String} {m n : Nat} {N : List Nat} (h : g.Setup ms labels clabels m N n)
    (hp : ms.PlainReferences) {κ : Nat → α} (hκ : g.Blind ms (N.sum + n) n κ) {x y : List α × Option (List α)} {M L : Nat}
    (hM : M = N.sum + n + ms.mu.idx.Nm.sum) (hL : L = N.sum + n + labels.length) (hx : x.1.length = L) (hs : g.LsmrStep M L x y) (ho : g.Orthogonal (N.sum + n) κ x) :
    y.1.length = L ∧ g.Orthogonal (N.sum + n) κ y := by
  obtain ⟨J, f, z, d, hJ, hf, hy2, hd, hy1, hbest, hsame⟩ := hs
  refine ⟨by rw [hy1, List.length_ofFn], ?_⟩
  obtain ⟨s1, s2, s3⟩ := h.sizes
  have hfin : ∀ q : Nat → α, (∀ c, N.sum + n ≤ c → q c = 0) → ∑ i : Fin L, q i = ∑ c ∈ Finset.range (N.sum + n), q c := fun q hq => by
    rw [sum_fin_range q, hL, sum_tail_zero hq]
  have hz : ∑ c ∈ Finset.range (N.sum + n), ent (List.ofFn z) c * κ c = 0 := by
    by_cases h0 : Matrix.mulVec (Matrix.transpose J) f = 0
    · have := hsame h0
      rw [hy2] at this
      exact ho.2 _ this.symm
    · obtain ⟨k, _, _, hzk, _⟩ := hbest h0
      obtain ⟨est, kk, _, _, _, hfe⟩ := calcF_parts h (hx.trans hL) hf
      have hor := krylov_orth (g := { g with xyza := x.1 }) (h.at (hx.trans hL)) hp (κ := κ) ⟨hκ.1, hκ.2⟩ hM hL hJ ?_ hzk
      · unfold Orth at hor
        rw [sum_congr rfl fun i _ => (by rw [ent_ofFn] : z i * κ i = ent (List.ofFn z) i * κ i), hfin (fun c => ent (List.ofFn z) c * κ c) (fun c hc => by rw [hκ.2 c hc, mul_zero])] at hor
        exact hor
      · have e : ∀ r : Fin M, (if (r : Nat) < N.sum + n then f r * κ r else 0) = if (r : Nat) < N.sum + n then (ent x.1 r - ent g.hd.mu.values r) * κ r else 0 := by
          intro r
          by_cases hr : (r : Nat) < N.sum + n
          · rw [if_pos hr, if_pos hr, ← ent_ofFn f r, hfe]
            congr 1
            unfold ent
            simp only [List.getD]
            rw [List.getElem?_append_left (by rw [List.length_zipWith, List.length_take, List.length_take]; omega)]
            simp only [List.getElem?_zipWith, List.getElem?_take_of_lt hr, List.getElem?_eq_getElem (show (r : Nat) < x.1.length by omega),
              List.getElem?_eq_getElem (show (r : Nat) < g.hd.mu.values.length by omega), Option.getD_some]
          · rw [if_neg hr, if_neg hr]
        rw [sum_congr rfl fun r _ => e r, sum_fin_range (fun r => if r < N.sum + n then (ent x.1 r - ent g.hd.mu.values r) * κ r else 0), hM,
          sum_tail_zero fun c hc => if_neg (by omega), ← ho.1]
        exact sum_congr rfl fun c hc => if_pos (Finset.mem_range.1 hc)
  refine ⟨?_, fun w hw => ?_⟩
  · have hdz : ∀ c, c < N.sum + n → ent (List.ofFn d) c = ent (List.ofFn z) c := by
      intro c hc
      unfold GN.calcPx at hd
      rw [h.var_eq] at hd
      obtain ⟨_, e, hd⟩ := bind_ok.1 hd; cases e
      obtain ⟨t, _, hd⟩ := bind_ok.1 hd
      rw [pure_ok] at hd
      rw [← hd]
      unfold ent
      simp only [List.getD]
      rw [List.getElem?_append_left (by simp [slice]; omega)]
      unfold slice
      rw [Nat.sub_zero, List.drop_zero, List.getElem?_take_of_lt hc]
    have hye : ∀ c, c < N.sum + n → ent y.1 c = ent x.1 c + ent (List.ofFn z) c := by
      intro c hc
      rw [← hdz c hc, hy1, ent_ofFn (fun i : Fin L => x.1.getD i 0 + d i) ⟨c, by omega⟩, ← ent_ofFn d ⟨c, by omega⟩]
    rw [sum_congr rfl fun c hc => (by rw [hye c (Finset.mem_range.1 hc)]; ring :
      (ent y.1 c - ent g.hd.mu.values c) * κ c = (ent x.1 c - ent g.hd.mu.values c) * κ c + ent (List.ofFn z) c * κ c), Finset.sum_add_distrib, ho.1, hz, add_zero]
  · rw [hy2] at hw
    rw [← Option.some.inj hw]
    exact hz

theorem steps_orthogonal {g : GN α δ} {ms : Evaluable α δ} {labels clabels : List String} {m n : Nat} {N : List Nat} (h : g.Setup ms labels clabels m N n)
    (hp : ms.PlainReferences) {κ : Nat → α} (hκ : g.Blind ms (N.sum + n) n κ) {M L : Nat} (hM : M = N.sum + n + ms.mu.idx.Nm.sum)
    (hL : L = N.sum + n + labels.length) : ∀ (k : Nat) {x y : List α × Option (List α)}, x.1.length = L → g.LsmrSteps M L k x y → g.Orthogonal (N.sum + n) κ x →
      g.Orthogonal (N.sum + n) κ y
  | 0, x, y, _, hs, ho => by cases hs; exact ho
  | k + 1, x, y, hx, hs, ho => by
    obtain ⟨w, h1, h2⟩ := hs
    obtain ⟨h3, h4⟩ := step_orthogonal h hp hκ hM hL hx h1 ho
    exact steps_orthogonal h hp hκ hM hL k h3 h2 h4

/-- **C85, runs.** A run with the LSMR solver, started at the data, reports as its cost the generalised-least-squares objective of the residuals it returns: `dᵀ V⁻¹ d` for the
residuals of the values and the declared covariance `V`, plus the sum of the squares of the K residuals over their uncertainties. -/
theorem C85_run {ms : Evaluable α δ} {labels clabels : List String} {m : Nat} (h : ms.SolverReady labels clabels m) {g : GN α δ} (hg : g.Solves ms)
    (hn : ms.mu.Normalisable) (hp : ms.PlainReferences) (hstart : g.xyza.take g.hd.mu.values.length = g.hd.mu.values) (hx2 : 2 ≤ g.xyza.length)
    {o : LsmrOpts α} (hh : 0 < o.huge) {sqrt : α → Py α} (hs : IsSqrt sqrt) {tol : GNTol α} {minres : GN α δ → List α → Py (List α)} {rc : Bool} {res : GNResult α}
    (hrun : g.run (GN.lsmrObject o sqrt) minres tol rc = .ok res) :
    ∃ q, ms.mu.WeightedSq res.values_res q ∧ (∀ q', ms.mu.WeightedSq res.values_res q' → q' = q) ∧ 0 ≤ q ∧ res.cost = q + ms.mu.kObjective res.ks_res := by
  obtain ⟨N, n, hset⟩ := hg.setup h
  obtain ⟨s1, s2, s3⟩ := hset.sizes
  have hsteps := C63_run h hg hh hs hrun
  obtain ⟨N_var, f, _, hst, _, _, _, _, _, _, _, hf, hcost⟩ := C32_loop hrun
  have hfin : res.state.xyza.length = g.xyza.length := hst.length (by show g.xyza.length ≠ 1; omega)
  have hxl : res.state.xyza.length = N.sum + n + labels.length := by rw [hfin, hset.xlen]
  obtain ⟨est, back, k, r1, r2, r3, r4, r5, r6, r7, r8, r9⟩ := C58_residuals h hg hx2 hrun
  obtain ⟨est', k', h1, h2, h3, h4, h5, h6, h7⟩ := objective_parts hset hg.norm hn hxl hf
  rw [s1, s3, h1] at r1; cases r1
  rw [h2] at r3; cases r3
  rw [r9 hn] at r7
  have hks := r8 hn.unck
  obtain ⟨q, hq, huniq, hnn, _⟩ := C85_definite h hn (d := res.values_res) (by rw [r7, List.length_zipWith, h4, Nat.min_self])
  refine ⟨q, hq, huniq, hnn, ?_⟩
  rw [hcost, h5, ← hks]
  congr 1
  obtain ⟨y, hy, rfl⟩ := hq
  rw [pairing_eq]
  symm
  have hyp : ∀ p ∈ ms.mu.positions, ∑ p' ∈ ms.mu.positions, ms.mu.declaredCov p.1 p.2 p'.1 p'.2 * y p'.1 p'.2 = ms.mu.elem res.values_res p.1 p.2 := fun p hp => by
    obtain ⟨q1, q2⟩ := mem_positions hp
    rw [← covMul_eq]
    exact hy _ _ (List.getElem?_eq_some_iff.1 q1).1 q2
  have hD : ∀ p ∈ ms.mu.positions, ms.mu.elem res.values_res p.1 p.2 =
      ∑ j ∈ Finset.range (N.sum + n), g.root ms (N.sum + n) n p j * (ent res.state.xyza j - ent g.hd.mu.values j) := by
    rw [r7]
    exact resid_eq hset h4 h6 h7
  refine gls_eq (P := ms.mu.positions) (V := fun p p' => ms.mu.declaredCov p.1 p.2 p'.1 p'.2) (M := g.root ms (N.sum + n) n) (y := fun p => y p.1 p.2)
    (z := fun p => y p.1 p.2) (root_gram hset) hD hyp ?_
  -- the difference from the data, less its part in the range of the transposed root
  obtain ⟨κ, hκd⟩ : ∃ κ : Nat → α, κ = fun c => if c < N.sum + n then ent res.state.xyza c - ent g.hd.mu.values c -
      ∑ p ∈ ms.mu.positions, g.root ms (N.sum + n) n p c * y p.1 p.2 else 0 := ⟨_, rfl⟩
  have hκlt : ∀ c, c < N.sum + n → κ c = ent res.state.xyza c - ent g.hd.mu.values c - ∑ p ∈ ms.mu.positions, g.root ms (N.sum + n) n p c * y p.1 p.2 := by
    intro c hc
    rw [hκd]
    exact if_pos hc
  have hroot : ∀ p ∈ ms.mu.positions, ∑ c ∈ Finset.range (N.sum + n), g.root ms (N.sum + n) n p c * κ c = 0 := by
    intro p hp
    rw [sum_congr rfl fun c hc => by rw [hκlt c (Finset.mem_range.1 hc), mul_sub], Finset.sum_sub_distrib, ← hD p hp, ← hyp p hp,
      gram_apply (V := fun p p' => ms.mu.declaredCov p.1 p.2 p'.1 p'.2) (M := g.root ms (N.sum + n) n) (root_gram hset) (fun p => y p.1 p.2) hp, sub_self]
  have hκ : g.Blind ms (N.sum + n) n κ := by
    refine ⟨fun b k r hk hr => ?_, fun c hc => ?_⟩
    · have hbl : ms.mu.blockLen b = k := by simp [MatchUp.blockLen, List.getD, hk]
      have := hroot ⟨b, r⟩ (positions_mem (List.getElem?_eq_some_iff.1 hk).1 (by rw [hbl]; exact hr))
      unfold GN.root at this
      simp only [hbl] at this
      exact this
    · rw [hκd]
      exact if_neg (by omega)
  have hstart' : ∀ c, c < N.sum + n → ent g.xyza c = ent g.hd.mu.values c := by
    intro c hc
    rw [← hstart]
    unfold ent
    simp only [List.getD]
    rw [List.getElem?_take_of_lt (by omega)]
  have horth := (steps_orthogonal hset hp hκ (by rw [s1, s3]) (by rw [s1, s2]) _ (by rw [hset.xlen, s1, s2]) hsteps
    ⟨Finset.sum_eq_zero fun c hc => by rw [hstart' c (Finset.mem_range.1 hc), sub_self, zero_mul], fun w hw => by cases hw⟩).1
  have hsq : ∑ c ∈ Finset.range (N.sum + n), κ c * κ c = 0 := by
    have e : ∑ c ∈ Finset.range (N.sum + n), κ c * κ c = ∑ c ∈ Finset.range (N.sum + n), (ent res.state.xyza c - ent g.hd.mu.values c) * κ c -
        ∑ c ∈ Finset.range (N.sum + n), (∑ p ∈ ms.mu.positions, g.root ms (N.sum + n) n p c * y p.1 p.2) * κ c := by
      rw [← Finset.sum_sub_distrib]
      refine sum_congr rfl fun c hc => ?_
      rw [← sub_mul, ← hκlt c (Finset.mem_range.1 hc)]
    rw [e, horth, zero_sub, neg_eq_zero, ← pair_apply (P := ms.mu.positions) (M := g.root ms (N.sum + n) n) (fun p => y p.1 p.2)]
    exact Finset.sum_eq_zero fun p hp => by rw [hroot p hp, mul_zero]
  intro c hc
  rw [Finset.sum_eq_zero_iff_of_nonneg fun _ _ => mul_self_nonneg _] at hsq
  have := mul_self_eq_zero.1 (hsq c (Finset.mem_range.2 hc))
  rw [hκlt c hc] at this
  exact sub_eq_zero.1 this
end
end Verif
