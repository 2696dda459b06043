import Verif.Lemmas.OrderCov
import Verif.Props.CovMinres
/-
C93: the covariance of the parameters does not depend on the order of the files.
-/
set_option autoImplicit false
namespace Verif
open Finset (sum_congr)
variable {δ : Type}

section
variable {env : ReadEnv ℝ δ} {ds ds' : List (Dataset ℝ)} {sd : SensorData ℝ (SensorModel ℝ δ) (AdjModel ℝ)} {σ : Nat → Nat} {ms ms' : Evaluable ℝ δ}

/-- **C93, measured values.** The values read from the files are the same measurements in both orders. -/
theorem C93_measured (he : EnumOk env.enumNat) {m : Nat} (hp : ds.Perm ds') (hσ : Reordered ds ds' σ) (hf : SolvableFiles ds sd m)
    (h : openMatchUpWith env defaultAdjustment ds sd = .ok ms) (h' : openMatchUpWith env defaultAdjustment ds' sd = .ok ms') :
    SameEstimates ds ds' σ ms.mu ms'.mu ms.mu.values ms'.mu.values := by
  have hf' := hf.perm hp
  obtain ⟨mu, e, hmu, hex, hms⟩ := openMatchUpWith_inv h
  obtain ⟨mu', e', hmu', hex', hms'⟩ := openMatchUpWith_inv h'
  intro i d s c b b' hb hb' r hr
  rw [hms] at hb
  rw [hms'] at hb'
  have e1 := elem_of_slice (f := fun r => s.X r c) (MatchUp.BlockOf.values hf.consistent hmu hb) hr
  have e2 := elem_of_slice (f := fun r => s.X r c) (MatchUp.BlockOf.values hf'.consistent hmu' hb') hr
  rw [hms, hms']
  exact e2.trans e1.symm

/-- **C93, K.** For the same measurements and parameters, the K of each match-up of each file is the same in both orders. -/
theorem C93_K (he : EnumOk env.enumNat) {m : Nat} (hp : ds.Perm ds') (hσ : Reordered ds ds' σ) (hf : SolvableFiles ds sd m)
    (h : openMatchUpWith env defaultAdjustment ds sd = .ok ms) (h' : openMatchUpWith env defaultAdjustment ds' sd = .ok ms') (hn : ms.mu.Normalisable)
    {g g' : GN ℝ δ} (hg : g.Solves ms) (hg' : g'.Solves ms') {v v' a : List ℝ} (hv : v.length = ms.mu.values.length) (hv' : v'.length = ms'.mu.values.length)
    (ha : a.length = g.hd.a.length) (hs : SameEstimates ds ds' σ ms.mu ms'.mu v v') : ∃ k k', ms.kOf v a = .ok k ∧ ms'.kOf v' a = .ok k' ∧ SameK ds ds' σ k k' := by
  obtain ⟨β, labels, clabels, o⟩ := orders he hp hσ hf h h'
  exact o.kOf hn (normalisable_perm he hp hf h h' hn) hg hg' hv hv' ha hs

/-- The propagated covariance depends on the derivatives at the measurements only. -/
theorem propagatedCov_congr {mu : MatchUp ℝ δ} {P : Nat} {B B' : Nat → Nat → Nat → ℝ} {A A' : Nat → Nat → ℝ}
    (hB : ∀ i, i < mu.ks.length → ∀ b r, b < mu.numBlocks → r < mu.blockLen b → B i b r = B' i b r) (hA : ∀ i, i < mu.ks.length → ∀ j, j < P → A i j = A' i j) :
    propagatedCov mu P B A = propagatedCov mu P B' A' := by
  have h1 : kCovM mu B = kCovM mu B' := by
    ext i i'
    show mu.kCov B i i' = mu.kCov B' i i'
    unfold MatchUp.kCov
    congr 1
    rw [pairing_eq, pairing_eq]
    refine sum_congr rfl fun p hp => ?_
    obtain ⟨q1, q2⟩ := positions_lt hp
    rw [hB i i.2 _ _ q1 q2, covMul_eq, covMul_eq]
    congr 1
    refine sum_congr rfl fun p' hp' => ?_
    obtain ⟨q1', q2'⟩ := positions_lt hp'
    rw [hB i' i'.2 _ _ q1' q2']
  have h2 : kParM mu.ks.length P A = kParM mu.ks.length P A' := by
    ext i j
    exact hA i i.2 j j.2
  unfold propagatedCov
  rw [h1, h2]

/-- **C93, propagation.** The covariance of the parameters which the declared uncertainties give at an estimate does not depend on the order of the files. -/
theorem C93_propagated (he : EnumOk env.enumNat) {m : Nat} (hp : ds.Perm ds') (hσ : Reordered ds ds' σ) (hf : SolvableFiles ds sd m)
    (h : openMatchUpWith env defaultAdjustment ds sd = .ok ms) (h' : openMatchUpWith env defaultAdjustment ds' sd = .ok ms') (hn : ms.mu.Normalisable)
    {g g' : GN ℝ δ} (hg : g.Solves ms) (hg' : g'.Solves ms') {v v' a : List ℝ} (hv : v.length = ms.mu.values.length) (hv' : v'.length = ms'.mu.values.length)
    (ha : a.length = g.hd.a.length) (hs : SameEstimates ds ds' σ ms.mu ms'.mu v v') {B B' : Nat → Nat → Nat → ℝ} {A A' : Nat → Nat → ℝ}
    (hB : ms.KDerivatives v a B A) (hB' : ms'.KDerivatives v' a B' A') :
    propagatedCov ms'.mu a.length B' A' = propagatedCov ms.mu a.length B A ∧ (Identifies A' ms'.mu.ks.length a.length ↔ Identifies A ms.mu.ks.length a.length) := by
  obtain ⟨β, labels, clabels, o⟩ := orders he hp hσ hf h h'
  have hn' := normalisable_perm he hp hf h h' hn
  obtain ⟨e, hee⟩ := hσ.equiv o.ksl o.ksl'
  obtain ⟨E, hE⟩ : ∃ E : Nat → Nat, ∀ f : Fin ms'.mu.ks.length, E f = e f :=
    ⟨fun i => if hi : i < ms'.mu.ks.length then e ⟨i, hi⟩ else 0, fun f => by simp [f.2]⟩
  have hD := o.derivatives hn hn' hg hg' hv hv' ha hs hee hE hB
  have hu := fun i hi => C88_unique (by rw [hv', o.ready'.wf.values]) hB' hD (i := i) hi
  refine ⟨?_, ?_⟩
  · rw [← o.propagated hee hE a.length B A]
    exact propagatedCov_congr (fun i hi => (hu i hi).1) fun i hi => (hu i hi).2
  · have key : ∀ d : Nat → ℝ, (∀ i, i < ms'.mu.ks.length → ∑ j ∈ Finset.range a.length, A' i j * d j = 0) ↔ ∀ i, i < ms.mu.ks.length → ∑ j ∈ Finset.range a.length, A i j * d j = 0 := by
      intro d
      have hrow : ∀ f : Fin ms'.mu.ks.length, ∑ j ∈ Finset.range a.length, A' f j * d j = ∑ j ∈ Finset.range a.length, A (e f) j * d j := by
        intro f
        refine sum_congr rfl fun j hj => ?_
        rw [(hu f f.2).2 j (Finset.mem_range.1 hj), hE]
      constructor
      · intro h i hi
        have := h (e.symm ⟨i, hi⟩) (e.symm ⟨i, hi⟩).2
        rw [hrow, e.apply_symm_apply] at this
        exact this
      · intro h i hi
        exact (hrow ⟨i, hi⟩).trans (h _ (e ⟨i, hi⟩).2)
    unfold Identifies
    exact ⟨fun h d hd => h d ((key d).2 hd), fun h d hd => h d ((key d).1 hd)⟩

/-- The estimate of the solver at its present state. -/
def GN.EstimateIs (g : GN ℝ δ) (est : Evaluable ℝ δ) : Prop := (g.estimate g.xyza g.hd.mu.values.length g.hd.mu.ks.length).denormalise = .ok est

theorem estimate_lengths {labels clabels : List String} {m : Nat} (h : ms.SolverReady labels clabels m) (hn : ms.mu.Normalisable) {g : GN ℝ δ} (hg : g.Solves ms) {est : Evaluable ℝ δ}
    (he : g.EstimateIs est) : est.mu.values.length = ms.mu.values.length ∧ (g.xyza.drop g.hd.mu.values.length).length = g.hd.a.length := by
  obtain ⟨N, n, hs⟩ := hg.setup h
  obtain ⟨s1, s2, s3⟩ := hs.sizes
  obtain ⟨f0, hf0, _⟩ := calcF_total hs hs.xlen
  obtain ⟨est0, k0, q1, q2, q3, q4, q5, q6, q7⟩ := objective_parts hs hg.norm hn hs.xlen hf0
  unfold GN.EstimateIs at he
  rw [s1, s3, q1] at he
  cases he
  refine ⟨q4, ?_⟩
  rw [List.length_drop, hs.xlen, s1, s2]
  omega

/-- **C93.** With exact linear solves, the covariance matrix of the parameters which the solver reports does not depend on the order of the files: at the same estimate of the measurements and
the parameters it has the same elements. -/
theorem C93_covariance_partial (he : EnumOk env.enumNat) {m : Nat} (hp : ds.Perm ds') (hσ : Reordered ds ds' σ) (hf : SolvableFiles ds sd m)
    (h : openMatchUpWith env defaultAdjustment ds sd = .ok ms) (h' : openMatchUpWith env defaultAdjustment ds' sd = .ok ms') (hn : ms.mu.Normalisable)
    {labels clabels : List String} {k : Nat} (hr : ms.SolverReady labels clabels k)
    {g g' : GN ℝ δ} (hg : g.Solves ms) (hg' : g'.Solves ms') (hsm : g.Smooth ms labels clabels) (hsm' : g'.Smooth ms' labels clabels)
    {est est' : Evaluable ℝ δ} (hest : g.EstimateIs est) (hest' : g'.EstimateIs est') (hs : SameEstimates ds ds' σ ms.mu ms'.mu est.mu.values est'.mu.values)
    (hpar : g'.xyza.drop g'.hd.mu.values.length = g.xyza.drop g.hd.mu.values.length)
    (hid : ∀ B A, ms.KDerivatives est.mu.values (g.xyza.drop g.hd.mu.values.length) B A → Identifies A ms.mu.ks.length g.hd.a.length)
    (hS : ∀ v, v.length = g.hd.a.length → matTVec g.S v = .ok (List.replicate g.hd.a.length 0) → v = List.replicate g.hd.a.length 0)
    (hS' : ∀ v, v.length = g'.hd.a.length → matTVec g'.S v = .ok (List.replicate g'.hd.a.length 0) → v = List.replicate g'.hd.a.length 0)
    (minres : GN ℝ δ → List ℝ → Py (List ℝ))
    (hsolve : ∀ b, b.length = g.hd.mu.values.length + g.hd.a.length → ∃ z, minres g b = .ok z ∧ z.length = b.length ∧ g.calcHx z = .ok b)
    (hsolve' : ∀ b, b.length = g'.hd.mu.values.length + g'.hd.a.length → ∃ z, minres g' b = .ok z ∧ z.length = b.length ∧ g'.calcHx z = .ok b) :
    g'.hd.a.length = g.hd.a.length ∧ ∃ V V', g.covariance minres = .ok V ∧ g'.covariance minres = .ok V' ∧
      ∀ i j, i < g.hd.a.length → j < g.hd.a.length → (V'.getD i []).getD j 0 = (V.getD i []).getD j 0 := by
  obtain ⟨β, labels0, clabels0, o⟩ := orders he hp hσ hf h h'
  obtain ⟨rfl, rfl⟩ : labels0 = labels ∧ clabels0 = clabels := by
    constructor
    · have := o.ready.parameters.1
      rw [hr.parameters.1] at this
      exact (Option.some.inj this).symm
    · have := o.ready.constants
      rw [hr.constants] at this
      exact (Option.some.inj this).symm
  have hn' := normalisable_perm he hp hf h h' hn
  obtain ⟨l1, l2⟩ := estimate_lengths o.ready hn hg hest
  obtain ⟨l1', l2'⟩ := estimate_lengths o.ready' hn' hg' hest'
  have hal : g'.hd.a.length = g.hd.a.length := by rw [← l2', hpar, l2]
  obtain ⟨est0, B, A, h0, hB⟩ := C88_derivatives o.ready hg hn hsm
  obtain ⟨est0', B', A', h0', hB'⟩ := C88_derivatives o.ready' hg' hn' hsm'
  have e1 : est0 = est := Except.ok.inj (h0.symm.trans hest)
  have e2 : est0' = est' := Except.ok.inj (h0'.symm.trans hest')
  subst e1 e2
  rw [hpar] at hB'
  obtain ⟨p1, p2⟩ := C93_propagated he hp hσ hf h h' hn hg hg' l1 l1' l2 hs hB hB'
  have hA := hid B A hB
  rw [l2] at p1 p2
  have hA' : Identifies A' ms'.mu.ks.length g'.hd.a.length := by rw [hal]; exact p2.2 hA
  obtain ⟨_, _, V, v1, v2⟩ := C88_covariance_partial o.ready hg hn hsm hest hB hA hS minres hsolve
  obtain ⟨_, _, V', v1', v2'⟩ := C88_covariance_partial o.ready' hg' hn' hsm' hest' (by rw [hpar]; exact hB') hA' hS' minres hsolve'
  refine ⟨hal, V, V', v1, v1', ?_⟩
  intro i j hi hj
  have q1 := v2 ⟨i, hi⟩ ⟨j, hj⟩
  have q2 := v2' ⟨i, by rw [hal]; exact hi⟩ ⟨j, by rw [hal]; exact hj⟩
  simp only at q1 q2
  rw [q1, q2]
  have : ∀ (P : Nat) (hP : P = g.hd.a.length) (hi' : i < P) (hj' : j < P), propagatedCov ms'.mu P B' A' ⟨i, hi'⟩ ⟨j, hj'⟩ = propagatedCov ms.mu g.hd.a.length B A ⟨i, hi⟩ ⟨j, hj⟩ := by
    intro P hP hi' hj'
    subst hP
    rw [p1]
  exact this _ hal _ _

/-- **C93, corresponding estimates.** For every state of the solver on the files in one order there is one on the files in the other with the same estimate of the measurements and the parameters. -/
theorem C93_corresponding (he : EnumOk env.enumNat) {m : Nat} (hp : ds.Perm ds') (hσ : Reordered ds ds' σ) (hf : SolvableFiles ds sd m)
    (h : openMatchUpWith env defaultAdjustment ds sd = .ok ms) (h' : openMatchUpWith env defaultAdjustment ds' sd = .ok ms') (hn : ms.mu.Normalisable)
    {g g' : GN ℝ δ} (hg : g.Solves ms) (hg' : g'.Solves ms') {est : Evaluable ℝ δ} (hest : g.EstimateIs est) :
    ∃ x est', ({ g' with xyza := x } : GN ℝ δ).Solves ms' ∧ ({ g' with xyza := x } : GN ℝ δ).EstimateIs est' ∧ SameEstimates ds ds' σ ms.mu ms'.mu est.mu.values est'.mu.values ∧
      x.drop g'.hd.mu.values.length = g.xyza.drop g.hd.mu.values.length := by
  obtain ⟨β, labels, clabels, o⟩ := orders he hp hσ hf h h'
  have hn' := normalisable_perm he hp hf h h' hn
  obtain ⟨l1, l2⟩ := estimate_lengths o.ready hn hg hest
  obtain ⟨N, n, hs⟩ := hg.setup o.ready
  obtain ⟨N', n', hs'⟩ := hg'.setup o.ready'
  obtain ⟨v, hvl, hve⟩ := exists_values ms'.mu fun b r => ms.mu.elem est.mu.values (β b) r
  have hvl' : v.length = ms'.mu.values.length := by rw [hvl, o.ready'.wf.values]
  obtain ⟨q, hq, _⟩ := C85_definite o.ready' hn' (d := List.zipWith (· - ·) v ms'.mu.values) (by rw [List.length_zipWith, hvl', Nat.min_self])
  obtain ⟨x, f, est', k, hx, hd, hf1, h1, hv, h2, _⟩ := C85_attained o.ready' hg' hn' hvl' (a := g.xyza.drop g.hd.mu.values.length)
    (by rw [l2, hs.sizes.2.1, hs'.sizes.2.1]) hq
  refine ⟨x, est', ⟨hg'.norm, hx.trans hg'.xyza, hg'.rows, hg'.cols⟩, h1, ?_, hd⟩
  rw [hv]
  exact o.same.2 fun b r hb hr => hve ⟨b, r⟩ (positions_mem hb hr)
end
end Verif
