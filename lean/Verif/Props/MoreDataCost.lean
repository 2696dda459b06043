import Verif.Props.MoreData
import Verif.Props.Descent
/-
Adding match-up files never makes the least cost smaller.
-/
set_option autoImplicit false
namespace Verif
open Finset (sum_congr)
variable {δ : Type}

/-- The weighted square of some of the residuals is not larger than that of all. -/
theorem Embedded.weightedSq_le {mu' : MatchUp ℝ δ} {β : Nat → Nat} {g : GN ℝ δ} {ms : Evaluable ℝ δ} {labels clabels : List String} {m n : Nat} {N : List Nat}
    (hset : g.Setup ms labels clabels m N n) (h : Embedded ms.mu mu' β) {d d' : List ℝ}
    (hd : ∀ b r, b < mu'.numBlocks → r < mu'.blockLen b → mu'.elem d' b r = ms.mu.elem d (β b) r) {q q' : ℝ} (hq : ms.mu.WeightedSq d q) (hq' : mu'.WeightedSq d' q') : q' ≤ q := by
  classical
  obtain ⟨y, hy, rfl⟩ := hq
  obtain ⟨y', hy', rfl⟩ := hq'
  obtain ⟨γ, hγ⟩ : ∃ γ : Nat → Nat, ∀ b', b' < mu'.numBlocks → γ (β b') = b' := by
    refine ⟨fun b => if hb : ∃ b', b' < mu'.numBlocks ∧ β b' = b then hb.choose else 0, fun b' hb' => ?_⟩
    have hb : ∃ b1, b1 < mu'.numBlocks ∧ β b1 = β b' := ⟨b', hb', rfl⟩
    simp only [dif_pos hb]
    exact h.inj _ _ hb.choose_spec.1 hb' hb.choose_spec.2
  obtain ⟨Y, hY1, hY2⟩ : ∃ Y : Nat → Nat → ℝ, (∀ b' r, b' < mu'.numBlocks → Y (β b') r = y' b' r) ∧ ∀ b r, (∀ b', b' < mu'.numBlocks → β b' ≠ b) → Y b r = 0 := by
    refine ⟨fun b r => if ∃ b', b' < mu'.numBlocks ∧ β b' = b then y' (γ b) r else 0, fun b' r hb' => ?_, fun b r hb => ?_⟩
    · show (if ∃ b1, b1 < mu'.numBlocks ∧ β b1 = β b' then y' (γ (β b')) r else 0) = _
      rw [if_pos ⟨b', hb', rfl⟩, hγ b' hb']
    · exact if_neg fun ⟨b', h1, h2⟩ => hb b' h1 h2
  have sub : ∀ z : Nat → Nat → ℝ, ∀ z' : Nat → Nat → ℝ, (∀ b r, b < mu'.numBlocks → r < mu'.blockLen b → z' b r = z (β b) r) → ms.mu.pairing Y z = mu'.pairing y' z' := by
    intro z z' hz
    rw [pairing_eq, pairing_eq, ← h.sum (fun b r => Y b r * z b r) fun b r _ _ h3 => by rw [hY2 b r h3, zero_mul]]
    refine sum_congr rfl fun p hp => ?_
    obtain ⟨h1, h2⟩ := positions_lt hp
    rw [hY1 _ _ h1, hz _ _ h1 h2]
  have c1 : ms.mu.pairing y (ms.mu.covMul y) = ms.mu.pairing y (ms.mu.elem d) := by
    rw [pairing_eq, pairing_eq]
    refine sum_congr rfl fun p hp => ?_
    obtain ⟨h1, h2⟩ := positions_lt hp
    rw [hy _ _ h1 h2]
  have c2 : ms.mu.pairing Y (ms.mu.covMul y) = mu'.pairing y' (mu'.elem d') := sub _ _ fun b r hb hr => by
    rw [hd b r hb hr, hy (β b) r (h.maps b hb) (by rw [← h.len b hb]; exact hr)]
  have c3 : ms.mu.pairing Y (ms.mu.covMul Y) = mu'.pairing y' (mu'.elem d') := sub _ _ fun b r hb hr => by
    rw [← hy' b r hb hr, covMul_eq, covMul_eq, ← h.sum (fun b1 r1 => ms.mu.declaredCov (β b) r b1 r1 * Y b1 r1) fun b1 r1 _ _ h3 => by rw [hY2 b1 r1 h3, mul_zero]]
    refine sum_congr rfl fun p hp => ?_
    obtain ⟨h1, h2⟩ := positions_lt hp
    rw [h.cov _ _ _ _ hb h1 hr h2, hY1 _ _ h1]
  rw [← c1, ← c2]
  rw [← c2] at c3
  have k1 := kCov_root hset (fun _ => y) 0 0
  have k2 := kCov_root hset (fun i => if i = 0 then Y else y) 0 1
  have k3 := kCov_root hset (fun _ => Y) 0 0
  simp only [if_true, one_ne_zero, if_false] at k1 k2 k3
  rw [k2, k1]
  rw [k2, k3] at c3
  generalize (fun c => ∑ p ∈ ms.mu.positions, y p.1 p.2 * g.root ms (N.sum + n) n p c) = u at *
  have key : 0 ≤ ∑ c ∈ Finset.range (N.sum + n), ((∑ p ∈ ms.mu.positions, y p.1 p.2 * g.root ms (N.sum + n) n p c) - ∑ p ∈ ms.mu.positions, Y p.1 p.2 * g.root ms (N.sum + n) n p c) ^ 2 :=
    Finset.sum_nonneg fun c _ => sq_nonneg _
  have e : ∑ c ∈ Finset.range (N.sum + n), ((∑ p ∈ ms.mu.positions, y p.1 p.2 * g.root ms (N.sum + n) n p c) - ∑ p ∈ ms.mu.positions, Y p.1 p.2 * g.root ms (N.sum + n) n p c) ^ 2 =
      ∑ c ∈ Finset.range (N.sum + n), ((∑ p ∈ ms.mu.positions, y p.1 p.2 * g.root ms (N.sum + n) n p c) * ∑ p ∈ ms.mu.positions, y p.1 p.2 * g.root ms (N.sum + n) n p c) -
      2 * ∑ c ∈ Finset.range (N.sum + n), ((∑ p ∈ ms.mu.positions, Y p.1 p.2 * g.root ms (N.sum + n) n p c) * ∑ p ∈ ms.mu.positions, y p.1 p.2 * g.root ms (N.sum + n) n p c) +
      ∑ c ∈ Finset.range (N.sum + n), ((∑ p ∈ ms.mu.positions, Y p.1 p.2 * g.root ms (N.sum + n) n p c) * ∑ p ∈ ms.mu.positions, Y p.1 p.2 * g.root ms (N.sum + n) n p c) := by
    rw [Finset.mul_sum, ← Finset.sum_sub_distrib, ← Finset.sum_add_distrib]
    exact sum_congr rfl fun c _ => by ring
  rw [e] at key
  linarith

section
variable {env : ReadEnv ℝ δ} {ds ds' : List (Dataset ℝ)} {sd : SensorData ℝ (SensorModel ℝ δ) (AdjModel ℝ)} {σ : Nat → Nat} {ms ms' : Evaluable ℝ δ}

/-- **C94, cost.** For every estimate of the solver on all files there is one on some of them, with the same estimate of their measurements and the same parameters, which costs no more:
adding files never makes the least cost smaller. -/
theorem C94_cost (he : EnumOk env.enumNat) {m m' : Nat} (hσ : SomeOf ds ds' σ) (hnew : NoNewSensor ds ds') (hf : SolvableFiles ds sd m) (hf' : SolvableFiles ds' sd m')
    (h : openMatchUpWith env defaultAdjustment ds sd = .ok ms) (h' : openMatchUpWith env defaultAdjustment ds' sd = .ok ms') (hn : ms.mu.Normalisable) (hn' : ms'.mu.Normalisable)
    {g g' : GN ℝ δ} (hg : g.Solves ms) (hg' : g'.Solves ms') {x f : List ℝ} (hx : x.length = g.xyza.length) (hfx : g.calcF x = .ok f) :
    ∃ x' f', x'.length = g'.xyza.length ∧ x'.drop g'.hd.mu.values.length = x.drop g.hd.mu.values.length ∧ g'.calcF x' = .ok f' ∧ dotp f' f' ≤ dotp f f := by
  obtain ⟨β, labels, clabels, o⟩ := fewer he hσ hnew hf hf' h h'
  have hr := o.ready
  have hr' := o.ready'
  have hc := o.consistent
  have hc' := o.consistent'
  obtain ⟨N, n, hs⟩ := hg.setup hr
  obtain ⟨N', n', hs'⟩ := hg'.setup hr'
  obtain ⟨t1, t2, t3⟩ := hs.sizes
  obtain ⟨t1', t2', t3'⟩ := hs'.sizes
  obtain ⟨est, k, h1, h2, h3, h4, hbound⟩ := C85_bound hr hg hn hx hfx
  obtain ⟨q, hq, _⟩ := C85_definite hr hn (d := List.zipWith (· - ·) est.mu.values ms.mu.values) (by rw [List.length_zipWith, h4, Nat.min_self])
  have hle := hbound q hq
  have hxl := hx.trans hs.xlen
  rw [t1, t3] at h1
  obtain ⟨kk, hk1, hk2⟩ := estimate_files hc h hs hxl h1 h2
  obtain ⟨mu, e, hmu, hex, hms⟩ := openMatchUpWith_inv h
  obtain ⟨mu', e', hmu', hex', hms'⟩ := openMatchUpWith_inv h'
  have hval : ∀ b i d s c r, ms'.mu.BlockOf ds' b i d s c → r < d.M → ms'.mu.elem ms'.mu.values b r = ms.mu.elem ms.mu.values (β b) r := by
    intro b i d s c r hb hr
    have hb0 := o.blocks b i d s c hb
    rw [hms'] at hb
    rw [hms] at hb0
    have e1 := elem_of_slice (f := fun r => s.X r c) (MatchUp.BlockOf.values hc' hmu' hb) hr
    have e2 := elem_of_slice (f := fun r => s.X r c) (MatchUp.BlockOf.values hc hmu hb0) hr
    rw [hms, hms']
    exact e1.trans e2.symm
  obtain ⟨v, hvl, hve⟩ := exists_values ms'.mu fun b r => ms.mu.elem est.mu.values (β b) r
  have hvl' : v.length = ms'.mu.values.length := by rw [hvl, hr'.wf.values]
  obtain ⟨q', hq', _⟩ := C85_definite hr' hn' (d := List.zipWith (· - ·) v ms'.mu.values) (by rw [List.length_zipWith, hvl', Nat.min_self])
  have hqq : q' ≤ q := by
    refine o.embedded.weightedSq_le hs ?_ hq hq'
    intro b r hb hr
    rw [elem_sub hvl', elem_sub h4]
    obtain ⟨i, d, s, c, hb', hM⟩ := o.block b hb
    rw [hval b i d s c r hb' (by rw [← hM]; exact hr)]
    congr 1
    exact hve ⟨b, r⟩ (positions_mem hb hr)
  obtain ⟨x', f', est', k', hx', hd', hf1, h1', hv', h2', hcost⟩ := C85_attained hr' hg' hn' hvl' (a := x.drop g.hd.mu.values.length)
    (by rw [List.length_drop, t2', hxl, t1]; omega) hq'
  refine ⟨x', f', hx', hd', hf1, ?_⟩
  rw [hcost]
  refine le_trans (add_le_add hqq ?_) hle
  -- K
  have hxl' := hx'.trans hs'.xlen
  rw [t1', t3'] at h1'
  obtain ⟨kk', hk1', hk2'⟩ := estimate_files hc' h' hs' hxl' h1' h2'
  rw [t1, t1'] at hd'
  have hkk : ∀ i d, ds'[i]? = some d → kk' i = kk (σ i) := by
    intro i d hd
    obtain ⟨hi, hd0⟩ := o.part.index hd
    obtain ⟨_, X1, X2, a1, a2, c1, c2, k1, k2, hkeq⟩ := hk2 (σ i) d hd0
    obtain ⟨_, X1', X2', a1', a2', c1', c2', k1', k2', hkeq'⟩ := hk2' i d hd
    have hX : ∀ (s : Side ℝ) (X X' : List (List ℝ)), d.HasSide s → ms.mu.Cols ds est.mu.values (σ i) d s X → ms'.mu.Cols ds' est'.mu.values i d s X' → X' = X := by
      intro s X X' hsd hX hX'
      apply List.ext_getElem?
      intro c
      by_cases hcm : c < s.m
      · obtain ⟨b, hb, hb1, hb2⟩ := o.exist i d s c hd hsd hcm
        rw [hX'.2 c b hb, hX.2 c (β b) (o.blocks _ _ _ _ _ hb)]
        congr 1
        unfold vector
        apply List.map_congr_left
        intro r hr
        rw [hv']
        exact hve ⟨b, r⟩ (positions_mem hb1 (by rw [hb2]; exact List.mem_range.1 hr))
      · rw [List.getElem?_eq_none (by rw [hX'.1]; omega), List.getElem?_eq_none (by rw [hX.1]; omega)]
    have e1 := hX d.s1 X1 X1' (.inl rfl) c1 c1'
    have e2 := hX d.s2 X2 X2' (.inr rfl) c2 c2'
    rw [hd', o.constants, e1] at k1'
    rw [hd', o.constants, e2] at k2'
    rw [hkeq, hkeq', k1.unique k1', k2.unique k2']
  rw [hk1, hk1']
  obtain ⟨T, hT, hsum⟩ := kObjective_files hmu fun i d hd => (hk2 i d hd).1
  obtain ⟨T', hT', hsum'⟩ := kObjective_files hmu' fun i d hd => (hk2' i d hd).1
  have hTT : T' = T := by
    funext d k
    rw [hT, hT']
  have hF : ∀ (i : Nat) (d : Dataset ℝ), ds[i]? = some d → (fun i => ((ds[i]?).map fun d => T d (kk i)).getD 0) i = T d (kk i) := fun i d hd => by simp [hd]
  have hF' : ∀ (i : Nat) (d : Dataset ℝ), ds'[i]? = some d → (fun i => ((ds'[i]?).map fun d => T d (kk' i)).getD 0) i = T' d (kk' i) := fun i d hd => by simp [hd, hTT]
  have e1 := hsum _ hF
  have e2 := hsum' _ hF'
  have g1 : ms.mu.kObjective (List.zipWith (· - ·) ((List.range ds.length).map kk).flatten ms.mu.ks) =
      mu.kObjective (List.zipWith (· - ·) ((List.range ds.length).map kk).flatten mu.ks) := by rw [hms]; rfl
  have g2 : ms'.mu.kObjective (List.zipWith (· - ·) ((List.range ds'.length).map kk').flatten ms'.mu.ks) =
      mu'.kObjective (List.zipWith (· - ·) ((List.range ds'.length).map kk').flatten mu'.ks) := by rw [hms']; rfl
  have hpos : ∀ i, 0 ≤ ((ds[i]?).map fun d => T d (kk i)).getD 0 := by
    intro i
    cases hi : ds[i]? with
    | none => simp
    | some d =>
      show 0 ≤ T d (kk i)
      rw [hT]
      exact dotp_nonneg _
  rw [g1, g2, e1, e2]
  have himg : ∑ i ∈ Finset.range ds'.length, ((ds'[i]?).map fun d => T d (kk' i)).getD 0 = ∑ j ∈ (Finset.range ds'.length).image σ, ((ds[j]?).map fun d => T d (kk j)).getD 0 := by
    rw [Finset.sum_image (fun i hi j hj he => hσ.inj i j (by simpa using hi) (by simpa using hj) he)]
    refine sum_congr rfl fun i hi => ?_
    have hi := Finset.mem_range.1 hi
    obtain ⟨d, hd⟩ : ∃ d, ds'[i]? = some d := ⟨_, List.getElem?_eq_getElem hi⟩
    have hd0 := (o.part.index hd).2
    rw [hd, hd0]
    show T d (kk' i) = T d (kk (σ i))
    rw [hkk i d hd]
  rw [himg]
  refine Finset.sum_le_sum_of_subset_of_nonneg ?_ fun i _ _ => hpos i
  intro j hj
  obtain ⟨i, hi, rfl⟩ := Finset.mem_image.1 hj
  exact Finset.mem_range.2 (hσ.maps i (Finset.mem_range.1 hi))

/-- **C94, least cost.** The optimal cost of all files is at least the optimal cost of some of them. -/
theorem C94_optimum (he : EnumOk env.enumNat) {m m' : Nat} (hσ : SomeOf ds ds' σ) (hnew : NoNewSensor ds ds') (hf : SolvableFiles ds sd m) (hf' : SolvableFiles ds' sd m')
    (h : openMatchUpWith env defaultAdjustment ds sd = .ok ms) (h' : openMatchUpWith env defaultAdjustment ds' sd = .ok ms') (hn : ms.mu.Normalisable) (hn' : ms'.mu.Normalisable)
    {g g' : GN ℝ δ} (hg : g.Solves ms) (hg' : g'.Solves ms') {a a' : List ℝ} {q q' : ℝ} (ho : g.Optimal a q) (ho' : g'.Optimal a' q') : q' ≤ q := by
  obtain ⟨x, f, hx, _, hfx, rfl, _⟩ := ho
  obtain ⟨x', f', _, _, _, _, hmin⟩ := ho'
  obtain ⟨y, fy, hy, _, hfy, hle⟩ := C94_cost he hσ hnew hf hf' h h' hn hn' hg hg' hx hfx
  exact le_trans (hmin y fy hy hfy) hle
end
end Verif
