import Verif.Lemmas.OrderK
/-
C86: the order of the files does not matter.
-/
set_option autoImplicit false
namespace Verif
open Finset (sum_congr)
variable {α δ : Type}

section
variable [Field α] [DecidableEq α] {env : ReadEnv α δ} {ds ds' : List (Dataset α)} {sd : SensorData α (SensorModel α δ) (AdjModel α)}

theorem SolvableFiles.perm {m : Nat} (hp : ds.Perm ds') (hf : SolvableFiles ds sd m) : SolvableFiles ds' sd m :=
  ⟨hf.consistent.perm hp, hf.keys, fun d hd => hf.columns d (hp.mem_iff.2 hd), by
      obtain ⟨d, hd, h⟩ := hf.largest
      exact ⟨d, hp.mem_iff.1 hd, h⟩,
    fun d hd => hf.matrices d (hp.mem_iff.2 hd), fun d hd => hf.sensors d (hp.mem_iff.2 hd)⟩

/-- The sensors of reordered files are the same. -/
theorem opened_sensors (hp : ds.Perm ds') {mu mu' : MatchUp α δ} (h : openMatchUp env ds = .ok mu) (h' : openMatchUp env ds' = .ok mu') :
    ∀ s, s ∈ mu.idx.sensors ↔ s ∈ mu'.idx.sensors := by
  obtain ⟨x, mx, hi, _, b1, _⟩ := opened_tables h
  obtain ⟨x', mx', hi', _, b1', _⟩ := opened_tables h'
  intro s
  rw [b1, b1', hi.sens_mem, hi'.sens_mem]
  constructor
  · rintro ⟨t, ht, rfl⟩
    obtain ⟨d, hd, hs⟩ := mem_sides.1 ht
    exact ⟨t, mem_sides.2 ⟨d, hp.mem_iff.1 hd, hs⟩, rfl⟩
  · rintro ⟨t, ht, rfl⟩
    obtain ⟨d, hd, hs⟩ := mem_sides.1 ht
    exact ⟨t, mem_sides.2 ⟨d, hp.mem_iff.2 hd, hs⟩, rfl⟩

/-- **C86, covariance.** The covariance which an opened match-up declares for two of its values is a function of the files holding them and of the columns they are in: no number which the
reader gives to sensors, series, blocks, matrices or systematic effects enters. -/
theorem C86_covariance (he : EnumOk env.enumNat) (hc : ConsistentFiles ds) {mu : MatchUp α δ} (h : openMatchUp env ds = .ok mu) :
    (∀ i d s c, ds[i]? = some d → d.HasSide s → c < s.m → ∃ b, mu.BlockOf ds b i d s c) ∧
    (∀ b, b < mu.numBlocks → ∃ i d s c, mu.BlockOf ds b i d s c) ∧
    ∀ b i d s c b' i' d' s' c' r r', mu.BlockOf ds b i d s c → mu.BlockOf ds b' i' d' s' c' → r < d.M → r' < d'.M →
      mu.elem mu.values b r = s.X r c ∧ mu.declaredCov b r b' r' = fileCov i d s c r i' d' s' c' r' := by
  refine ⟨fun i d s c hd hs hlt => blockOf_exists hc h hd hs hlt, fun b hb => blockOf_of hc h hb, ?_⟩
  intro b i d s c b' i' d' s' c' r r' hb hb' hr hr'
  refine ⟨?_, declaredCov_files he hc h hb hb' hr hr'⟩
  exact elem_of_slice (f := fun r => s.X r c) (hb.values hc h) hr

/-- **C86, sensor data.** The parameters and constants, and the sensors they are labelled with, do not depend on the order of the files. -/
theorem C86_parameters (hp : ds.Perm ds') {dflt : AdjModel α} {ms ms' : Evaluable α δ} (h : openMatchUpWith env dflt ds sd = .ok ms)
    (h' : openMatchUpWith env dflt ds' sd = .ok ms') : ms'.a = ms.a ∧ ms'.constant = ms.constant ∧
      ms'.mu.idx.parameter_sensor = ms.mu.idx.parameter_sensor ∧ ms'.mu.idx.constant_sensor = ms.mu.idx.constant_sensor := by
  obtain ⟨mu, e, hmu, hex, rfl⟩ := openMatchUpWith_inv h
  obtain ⟨mu', e', hmu', hex', rfl⟩ := openMatchUpWith_inv h'
  obtain ⟨e1, e2, e3, e4⟩ := extract_same (opened_sensors hp hmu hmu') hex hex'
  exact ⟨e1, e3, congrArg some e2, congrArg some e4⟩

/-- Files whose uncertainties can be normalised in one order can in any order. -/
theorem normalisable_perm (he : EnumOk env.enumNat) {m : Nat} (hp : ds.Perm ds') (hf : SolvableFiles ds sd m) {ms ms' : Evaluable α δ}
    (h : openMatchUpWith env defaultAdjustment ds sd = .ok ms) (h' : openMatchUpWith env defaultAdjustment ds' sd = .ok ms') (hn : ms.mu.Normalisable) :
    ms'.mu.Normalisable := by
  have hf' := hf.perm hp
  obtain ⟨labels', clabels', hr'⟩ := opened_solverReady he hf' h'
  have hc := hf.consistent
  have hc' := hf'.consistent
  obtain ⟨mu, e, hmu, hex, rfl⟩ := openMatchUpWith_inv h
  obtain ⟨mu', e', hmu', hex', rfl⟩ := openMatchUpWith_inv h'
  obtain ⟨_, hn1, hn2, _, _⟩ := opened_numbered env ds' hc' mu' hmu'
  obtain ⟨σ, s1, s2, s3⟩ := perm_index hp
  have hlen := hp.length_eq
  refine ⟨hr'.wf, hr'.pairs, hr'.orig, ?_, ?_⟩
  · intro b n u hu hb
    have hu' : mu'.unc[b]? = some u := hu
    have hbl : b < mu'.numBlocks := (List.getElem?_eq_some_iff.1 hb).1
    obtain ⟨i, d, s, c, hbo⟩ := blockOf_of hc' hmu' hbl
    have hnM : n = d.M := by
      have hb2 := hbo.size hmu'
      have hb3 : mu'.idx.N_var[b]? = some n := hb
      rw [hb3] at hb2
      exact Option.some.inj hb2
    subst hnM
    obtain ⟨b0, hb0⟩ := blockOf_exists hc hmu (i := σ i) (d := d) (s := s) (c := c)
      (by rw [← s3 i (List.getElem?_eq_some_iff.1 hbo.1).1]; exact hbo.1) hbo.2.1 hbo.2.2.1
    obtain ⟨u2, hu2, hcase⟩ := hbo.unc he hc' hmu'
    rw [hu'] at hu2; cases hu2
    obtain ⟨u0, hu0, hcase0⟩ := hb0.unc he hc hmu
    have hnum : (u.unc.typeID = 2 ∨ u.unc.typeID = 4) → ∃ k, u.uS_i = some k ∧ 1 ≤ k := by
      intro ht
      obtain ⟨k, hk⟩ := Option.ne_none_iff_exists'.1 ((hn1 u (List.mem_of_getElem? hu')).2 ht)
      exact ⟨k, hk, (hn2 u (List.mem_of_getElem? hu') k hk).1⟩
    have hz0 := hb0.size hmu
    have hb1 : u0.Random d.M ∨ u0.Averaged mu d.M := hn.blocks b0 d.M u0 hu0 hz0
    rcases hb1 with ⟨uR, l1, l2, l3⟩ | ⟨wi, ui, w, uv, a1, a2, a3, a4, a5, a6, a7, a8⟩
    · refine .inl ?_
      rcases hcase0 with ⟨t0, q0⟩ | ⟨t0, q0⟩ | ⟨wi, ui, W, U, _, _, _, _, _, ⟨_, q0⟩ | ⟨_, _, q0⟩⟩
      · rcases l3 with l3 | ⟨uS, k, l3, _⟩ <;> rw [q0] at l3 <;> cases l3
        rcases hcase with ⟨t, q⟩ | ⟨t, q⟩ | ⟨wi, ui, W, U, _, _, _, _, _, ⟨t, q⟩ | ⟨t, _, q⟩⟩ <;> first | omega | skip
        exact ⟨_, l1, l2, .inl q⟩
      · rcases l3 with l3 | ⟨uS, k, l3, _⟩ <;> rw [q0] at l3 <;> cases l3
        rcases hcase with ⟨t, q⟩ | ⟨t, q⟩ | ⟨wi, ui, W, U, _, _, _, _, _, ⟨t, q⟩ | ⟨t, _, q⟩⟩ <;> first | omega | skip
        obtain ⟨k', hk1, hk2⟩ := hnum (.inl (by rw [q]; rfl))
        exact ⟨_, l1, l2, .inr ⟨_, k', q, by simp [column], hk1, hk2⟩⟩
      · rcases l3 with l3 | ⟨uS, k, l3, _⟩ <;> rw [q0] at l3 <;> cases l3
      · rcases l3 with l3 | ⟨uS, k, l3, _⟩ <;> rw [q0] at l3 <;> cases l3
    · refine .inr ?_
      rcases hcase0 with ⟨t0, q0⟩ | ⟨t0, q0⟩ | ⟨wi0, ui0, W0, U0, _, p1, p2, p3, p4, ⟨t0, q0⟩ | ⟨t0, _, q0⟩⟩
      · rcases a8 with a8 | ⟨uS, k, a8, _⟩ <;> rw [q0] at a8 <;> cases a8
      · rcases a8 with a8 | ⟨uS, k, a8, _⟩ <;> rw [q0] at a8 <;> cases a8
      · rcases a8 with a8 | ⟨uS, k, a8, _⟩ <;> rw [q0] at a8 <;> cases a8
        rw [p1] at a1; cases a1
        rw [p3] at a2; cases a2
        rcases hcase with ⟨t, q⟩ | ⟨t, q⟩ | ⟨wi, ui, W, U, _, r1, r2, r3, r4, ⟨t, q⟩ | ⟨t, _, q⟩⟩ <;> first | omega | skip
        rw [p2] at r2; cases r2
        rw [p4] at r4; cases r4
        exact ⟨wi, ui, _, _, r1, r3, a3, a4, a5, a6, a7, .inl q⟩
      · rcases a8 with a8 | ⟨uS, k, a8, _⟩ <;> rw [q0] at a8 <;> cases a8
        rw [p1] at a1; cases a1
        rw [p3] at a2; cases a2
        rcases hcase with ⟨t, q⟩ | ⟨t, q⟩ | ⟨wi, ui, W, U, _, r1, r2, r3, r4, ⟨t, q⟩ | ⟨t, _, q⟩⟩ <;> first | omega | skip
        rw [p2] at r2; cases r2
        rw [p4] at r4; cases r4
        obtain ⟨k', hk1, hk2⟩ := hnum (.inr (by rw [q]; rfl))
        exact ⟨wi, ui, _, _, r1, r3, a3, a4, a5, a6, a7, .inr ⟨_, k', q, hk1, hk2⟩⟩
  · have hk : ∀ {ds : List (Dataset α)} {mu : MatchUp α δ}, openMatchUp env ds = .ok mu → mu.unck = openUncK env.rss ds := by
      intro ds mu hmu
      obtain ⟨_, _, _, _, _, _, _, _, _, _, _, huk, _⟩ := openMatchUp_inv hmu
      exact huk
    have h2 : mu'.unck = openUncK env.rss ds' := hk hmu'
    have h1 : mu.unck = openUncK env.rss ds := hk hmu
    intro u hu
    have hu' : u ∈ mu'.unck := hu
    rw [h2] at hu'
    have : u ∈ mu.unck := by
      rw [h1]
      exact (List.Perm.mem_iff (hp.map _)).2 hu'
    exact hn.unck u this
end

section
variable [Field α] [LinearOrder α] [IsStrictOrderedRing α] {env : ReadEnv α δ} {ds ds' : List (Dataset α)} {sd : SensorData α (SensorModel α δ) (AdjModel α)}

/-- **C86, cost.** For every estimate of the solver on the files in one order there is one on the files in another order, with the same parameters, which costs no more. -/
theorem C86_cost (he : EnumOk env.enumNat) {m : Nat} (hp : ds.Perm ds') (hf : SolvableFiles ds sd m) {ms ms' : Evaluable α δ}
    (h : openMatchUpWith env defaultAdjustment ds sd = .ok ms) (h' : openMatchUpWith env defaultAdjustment ds' sd = .ok ms') (hn : ms.mu.Normalisable)
    {g g' : GN α δ} (hg : g.Solves ms) (hg' : g'.Solves ms') {x f : List α} (hx : x.length = g.xyza.length) (hfx : g.calcF x = .ok f) :
    ∃ x' f', x'.length = g'.xyza.length ∧ x'.drop g'.hd.mu.values.length = x.drop g.hd.mu.values.length ∧ g'.calcF x' = .ok f' ∧ dotp f' f' ≤ dotp f f := by
  classical
  have hf' := hf.perm hp
  have hn' := normalisable_perm he hp hf h h' hn
  have hc := hf.consistent
  have hc' := hf'.consistent
  obtain ⟨labels, clabels, hr⟩ := opened_solverReady he hf h
  obtain ⟨labels', clabels', hr'⟩ := opened_solverReady he hf' h'
  obtain ⟨pa, pc, pl, pcl⟩ := C86_parameters hp h h'
  have hl : labels' = labels := by
    rw [hr.parameters.1, hr'.parameters.1] at pl
    exact Option.some.inj pl
  have hcl : clabels' = clabels := by
    rw [hr.constants, hr'.constants] at pcl
    exact Option.some.inj pcl
  subst hl hcl
  obtain ⟨N, n, hs⟩ := hg.setup hr
  obtain ⟨N', n', hs'⟩ := hg'.setup hr'
  obtain ⟨t1, t2, t3⟩ := hs.sizes
  obtain ⟨t1', t2', t3'⟩ := hs'.sizes
  obtain ⟨est, k, h1, h2, h3, h4, hbound⟩ := C85_bound hr hg hn hx hfx
  obtain ⟨q, hq, _⟩ := C85_definite hr hn (d := List.zipWith (· - ·) est.mu.values ms.mu.values) (by rw [List.length_zipWith, h4, Nat.min_self])
  have hle := hbound q hq
  have hxl := hx.trans hs.xlen
  rw [t1, t3] at h1
  obtain ⟨kk, hk1, hk2⟩ := estimate_files hc h hs hxl h1 h2
  -- the renumbering
  obtain ⟨σ, s1, s2, s3⟩ := perm_index hp
  have hlen := hp.length_eq
  rw [← hlen] at s1 s2 s3
  obtain ⟨mu, e, hmu, hex, hms⟩ := openMatchUpWith_inv h
  obtain ⟨mu', e', hmu', hex', hms'⟩ := openMatchUpWith_inv h'
  obtain ⟨β, hβ, hβb⟩ := opened_renumbered he hc hc' hmu hmu' hlen.symm s1 s2 s3
  have hR : Renumbered ms.mu ms'.mu β := by
    rw [hms, hms']
    exact ⟨hβ.maps, hβ.inj, hβ.onto, hβ.len, hβ.cov⟩
  have hbo : ∀ b i d s c, ms'.mu.BlockOf ds' b i d s c → ms.mu.BlockOf ds (β b) (σ i) d s c := by
    rw [hms, hms']
    exact hβb
  have hval : ∀ b i d s c r, ms'.mu.BlockOf ds' b i d s c → r < d.M → ms'.mu.elem ms'.mu.values b r = ms.mu.elem ms.mu.values (β b) r := by
    intro b i d s c r hb hr
    have hb0 := hbo b i d s c hb
    rw [hms'] at hb
    rw [hms] at hb0
    have e1 := elem_of_slice (f := fun r => s.X r c) (MatchUp.BlockOf.values hc' hmu' hb) hr
    have e2 := elem_of_slice (f := fun r => s.X r c) (MatchUp.BlockOf.values hc hmu hb0) hr
    rw [hms, hms']
    exact e1.trans e2.symm
  have hof : ∀ b, b < ms'.mu.numBlocks → ∃ i d s c, ms'.mu.BlockOf ds' b i d s c ∧ ms'.mu.blockLen b = d.M := by
    rw [hms']
    intro b hb
    obtain ⟨i, d, s, c, hb'⟩ := blockOf_of hc' hmu' (b := b) hb
    have hb2 := hb'.len hmu'
    exact ⟨i, d, s, c, hb', hb2⟩
  -- the values in the other order
  obtain ⟨v, hvl, hve⟩ := exists_values ms'.mu fun b r => ms.mu.elem est.mu.values (β b) r
  have hvl' : v.length = ms'.mu.values.length := by rw [hvl, hr'.wf.values]
  have hq' : ms'.mu.WeightedSq (List.zipWith (· - ·) v ms'.mu.values) q := by
    refine hR.weightedSq (d := List.zipWith (· - ·) est.mu.values ms.mu.values) ?_ hq
    intro b r hb hr
    rw [elem_sub hvl', elem_sub h4]
    obtain ⟨i, d, s, c, hb', hM⟩ := hof b hb
    rw [hval b i d s c r hb' (by rw [← hM]; exact hr)]
    congr 1
    exact hve ⟨b, r⟩ (positions_mem hb hr)
  obtain ⟨x', f', est', k', hx', hd', hf1, h1', hv', h2', hcost⟩ := C85_attained hr' hg' hn' hvl' (a := x.drop g.hd.mu.values.length)
    (by rw [List.length_drop, t2', hxl, t1]; omega) hq'
  refine ⟨x', f', hx', hd', hf1, ?_⟩
  rw [hcost]
  refine le_trans (le_of_eq ?_) hle
  congr 1
  -- K
  have hxl' := hx'.trans hs'.xlen
  rw [t1', t3'] at h1'
  obtain ⟨kk', hk1', hk2'⟩ := estimate_files hc' h' hs' hxl' h1' h2'
  rw [t1, t1'] at hd'
  have hkk : ∀ i d, ds'[i]? = some d → kk' i = kk (σ i) := by
    intro i d hd
    have hil : i < ds.length := by rw [hlen]; exact (List.getElem?_eq_some_iff.1 hd).1
    have hd0 : ds[σ i]? = some d := by rw [← s3 i hil]; exact hd
    obtain ⟨_, X1, X2, a1, a2, c1, c2, k1, k2, hkeq⟩ := hk2 (σ i) d hd0
    obtain ⟨_, X1', X2', a1', a2', c1', c2', k1', k2', hkeq'⟩ := hk2' i d hd
    have hX : ∀ (s : Side α) (X X' : List (List α)), d.HasSide s → ms.mu.Cols ds est.mu.values (σ i) d s X → ms'.mu.Cols ds' est'.mu.values i d s X' → X' = X := by
      intro s X X' hsd hX hX'
      apply List.ext_getElem?
      intro c
      by_cases hcm : c < s.m
      · obtain ⟨b, hb⟩ : ∃ b, ms'.mu.BlockOf ds' b i d s c := by
          rw [hms']
          exact blockOf_exists hc' hmu' hd hsd hcm
        have hbM : ms'.mu.blockLen b = d.M ∧ b < ms'.mu.numBlocks := by
          rw [hms'] at hb ⊢
          have hb1 := MatchUp.BlockOf.len (mu := mu') hmu' hb
          have hb2 := MatchUp.BlockOf.lt (mu := mu') hmu' hb
          exact ⟨hb1, hb2⟩
        rw [hX'.2 c b hb, hX.2 c (β b) (hbo _ _ _ _ _ hb)]
        congr 1
        unfold vector
        apply List.map_congr_left
        intro r hr
        rw [hv']
        exact hve ⟨b, r⟩ (positions_mem hbM.2 (by rw [hbM.1]; exact List.mem_range.1 hr))
      · rw [List.getElem?_eq_none (by rw [hX'.1]; omega), List.getElem?_eq_none (by rw [hX.1]; omega)]
    have e1 := hX d.s1 X1 X1' (.inl rfl) c1 c1'
    have e2 := hX d.s2 X2 X2' (.inr rfl) c2 c2'
    rw [hd', pc, e1] at k1'
    rw [hd', pc, e2] at k2'
    rw [hkeq, hkeq', k1.unique k1', k2.unique k2']
  rw [hk1, hk1']
  obtain ⟨T, hT, hsum⟩ := kObjective_files hmu fun i d hd => (hk2 i d hd).1
  obtain ⟨T', hT', hsum'⟩ := kObjective_files hmu' fun i d hd => (hk2' i d hd).1
  have hTT : T' = T := by
    funext d k
    rw [hT, hT']
  have hF : ∀ (i : Nat) (d : Dataset α), ds[i]? = some d → (fun i => ((ds[i]?).map fun d => T d (kk i)).getD 0) i = T d (kk i) := fun i d hd => by simp [hd]
  have hF' : ∀ (i : Nat) (d : Dataset α), ds'[i]? = some d → (fun i => ((ds'[i]?).map fun d => T d (kk' i)).getD 0) i = T' d (kk' i) := fun i d hd => by simp [hd, hTT]
  have e1 := hsum _ hF
  have e2 := hsum' _ hF'
  have g1 : ms.mu.kObjective (List.zipWith (· - ·) ((List.range ds.length).map kk).flatten ms.mu.ks) =
      mu.kObjective (List.zipWith (· - ·) ((List.range ds.length).map kk).flatten mu.ks) := by rw [hms]; rfl
  have g2 : ms'.mu.kObjective (List.zipWith (· - ·) ((List.range ds'.length).map kk').flatten ms'.mu.ks) =
      mu'.kObjective (List.zipWith (· - ·) ((List.range ds'.length).map kk').flatten mu'.ks) := by rw [hms']; rfl
  have hre : ∀ F : Nat → α, ∑ i ∈ Finset.range ds.length, F i = ∑ i ∈ Finset.range ds.length, F (σ i) := by
    intro F
    conv_lhs => rw [← range_onto s1 s2]
    exact Finset.sum_image (fun i hi j hj he => s2 i j (by simpa using hi) (by simpa using hj) he)
  rw [g1, g2, e1, e2, ← hlen, hre fun i => ((ds[i]?).map fun d => T d (kk i)).getD 0]
  refine sum_congr rfl fun i hi => ?_
  have hi := Finset.mem_range.1 hi
  have hs3 := s3 i hi
  obtain ⟨d, hd⟩ : ∃ d, ds[σ i]? = some d := ⟨_, List.getElem?_eq_getElem (s1 i hi)⟩
  have hd' : ds'[i]? = some d := by rw [hs3]; exact hd
  show ((ds'[i]?).map fun d => T d (kk' i)).getD 0 = ((ds[σ i]?).map fun d => T d (kk (σ i))).getD 0
  rw [hd, hd', hkk i d hd']

/-- **C86, optimum.** The optimal parameters, and the optimal cost, do not depend on the order of the files. -/
theorem C86_optimum (he : EnumOk env.enumNat) {m : Nat} (hp : ds.Perm ds') (hf : SolvableFiles ds sd m) {ms ms' : Evaluable α δ}
    (h : openMatchUpWith env defaultAdjustment ds sd = .ok ms) (h' : openMatchUpWith env defaultAdjustment ds' sd = .ok ms') (hn : ms.mu.Normalisable)
    {g g' : GN α δ} (hg : g.Solves ms) (hg' : g'.Solves ms') (a : List α) (q : α) : g.Optimal a q ↔ g'.Optimal a q := by
  have key : ∀ {ds ds' : List (Dataset α)}, ds.Perm ds' → SolvableFiles ds sd m → ∀ {ms ms' : Evaluable α δ}, openMatchUpWith env defaultAdjustment ds sd = .ok ms →
      openMatchUpWith env defaultAdjustment ds' sd = .ok ms' → ms.mu.Normalisable → ∀ {g g' : GN α δ}, g.Solves ms → g'.Solves ms' → g.Optimal a q → g'.Optimal a q := by
    rintro ds ds' hp hf ms ms' h h' hn g g' hg hg' ⟨x, f, hx, rfl, hfx, rfl, hmin⟩
    have hn' := normalisable_perm he hp hf h h' hn
    have hall : ∀ x' f', x'.length = g'.xyza.length → g'.calcF x' = .ok f' → dotp f f ≤ dotp f' f' := by
      intro x' f' hx' hf'
      obtain ⟨y, fy, hy, _, hfy, hle⟩ := C86_cost he hp.symm (hf.perm hp) h' h hn' hg' hg hx' hf'
      exact le_trans (hmin y fy hy hfy) hle
    obtain ⟨x', f', hx', hd, hf', hle⟩ := C86_cost he hp hf h h' hn hg hg' hx hfx
    exact ⟨x', f', hx', hd, hf', le_antisymm (hall x' f' hx' hf') hle, hall⟩
  exact ⟨key hp hf h h' hn hg hg', key hp.symm (hf.perm hp) h' h (normalisable_perm he hp hf h h' hn) hg' hg⟩
end
end Verif
