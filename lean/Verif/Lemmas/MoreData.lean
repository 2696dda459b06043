import Verif.Spec.MoreData
import Verif.Props.OrderCov
import Verif.Props.NormalEquations
/-
K of some of the files, its derivatives and its covariance, within those of all files.
-/
set_option autoImplicit false
namespace Verif
open Finset (sum_congr)
variable {δ : Type}

theorem SomeOf.index {α : Type} {ds ds' : List (Dataset α)} {σ : Nat → Nat} (h : SomeOf ds ds' σ) {i : Nat} {d : Dataset α} (hd : ds'[i]? = some d) :
    i < ds'.length ∧ ds[σ i]? = some d := by
  have hi : i < ds'.length := (List.getElem?_eq_some_iff.1 hd).1
  exact ⟨hi, by rw [← h.file i hi]; exact hd⟩

theorem SomeOf.mem {α : Type} {ds ds' : List (Dataset α)} {σ : Nat → Nat} (h : SomeOf ds ds' σ) {d : Dataset α} (hd : d ∈ ds') : d ∈ ds := by
  obtain ⟨i, hi⟩ := List.mem_iff_getElem?.1 hd
  exact List.mem_of_getElem? (h.index hi).2

/-- The index of each K of the fewer files among all. -/
theorem SomeOf.rows {α : Type} {ds ds' : List (Dataset α)} {σ : Nat → Nat} (h : SomeOf ds ds' σ) {T T' : Nat} (hT : T = (ds.map (·.M)).sum) (hT' : T' = (ds'.map (·.M)).sum) :
    ∃ e : Fin T' → Fin T, Function.Injective e ∧ ∀ (f : Fin T'), ∃ i d r, ds'[i]? = some d ∧ r < d.M ∧ (f : Nat) = kIndex ds' i r ∧ ((e f : Fin T) : Nat) = kIndex ds (σ i) r := by
  subst hT hT'
  have key : ∀ f : Fin (ds'.map (·.M)).sum, ∃ g : Fin (ds.map (·.M)).sum, ∃ i d r, ds'[i]? = some d ∧ r < d.M ∧ (f : Nat) = kIndex ds' i r ∧ (g : Nat) = kIndex ds (σ i) r := by
    intro f
    obtain ⟨i, d, r, h1, h2, h3⟩ := kIndex_exists f.2
    exact ⟨⟨kIndex ds (σ i) r, kIndex_lt (h.index h1).2 h2⟩, i, d, r, h1, h2, h3, rfl⟩
  choose e he using key
  refine ⟨e, ?_, he⟩
  intro f f' hff
  obtain ⟨i, d, r, h1, h2, h3, h4⟩ := he f
  obtain ⟨i', d', r', h1', h2', h3', h4'⟩ := he f'
  rw [hff, h4'] at h4
  obtain ⟨k1, k2⟩ := kIndex_inj (h.index h1').2 (h.index h1).2 h2' h2 h4
  have := h.inj i' i (h.index h1').1 (h.index h1).1 k1
  subst this k2
  exact Fin.ext (h3.trans h3'.symm)

/-- The blocks of some of the files among those of all. -/
structure Embedded {α : Type} [Field α] (mu mu' : MatchUp α δ) (β : Nat → Nat) : Prop where
  maps : ∀ b, b < mu'.numBlocks → β b < mu.numBlocks
  inj : ∀ b b', b < mu'.numBlocks → b' < mu'.numBlocks → β b = β b' → b = b'
  len : ∀ b, b < mu'.numBlocks → mu'.blockLen b = mu.blockLen (β b)
  cov : ∀ b r b' r', b < mu'.numBlocks → b' < mu'.numBlocks → r < mu'.blockLen b → r' < mu'.blockLen b' → mu'.declaredCov b r b' r' = mu.declaredCov (β b) r (β b') r'

section
variable {α : Type} [Field α] {mu mu' : MatchUp α δ} {β : Nat → Nat}

/-- A sum over the values of all files whose terms vanish outside some files is the sum over these. -/
theorem Embedded.sum (h : Embedded mu mu' β) (F : Nat → Nat → α) (h0 : ∀ b r, b < mu.numBlocks → r < mu.blockLen b → (∀ b', b' < mu'.numBlocks → β b' ≠ b) → F b r = 0) :
    ∑ p ∈ mu'.positions, F (β p.1) p.2 = ∑ p ∈ mu.positions, F p.1 p.2 := by
  refine Finset.sum_of_injOn (fun p => (⟨β p.1, p.2⟩ : Σ _ : Nat, Nat)) ?_ ?_ ?_ (fun _ _ => rfl)
  · rintro ⟨b, r⟩ hp ⟨b', r'⟩ hp' he
    obtain ⟨h1, _⟩ := positions_lt hp
    obtain ⟨h1', _⟩ := positions_lt hp'
    simp only [Sigma.mk.injEq, heq_eq_eq] at he
    obtain ⟨e1, e2⟩ := he
    have := h.inj _ _ h1 h1' e1
    simp only at this
    subst this e2
    rfl
  · intro p hp
    obtain ⟨h1, h2⟩ := positions_lt hp
    exact positions_mem (h.maps _ h1) (by rw [← h.len _ h1]; exact h2)
  · rintro ⟨b, r⟩ hp hn
    obtain ⟨h1, h2⟩ := positions_lt hp
    refine h0 b r h1 h2 fun b' hb' hbb => hn ?_
    refine ⟨⟨b', r⟩, ?_, by simp [hbb]⟩
    subst hbb
    exact positions_mem hb' (by rw [h.len _ hb']; exact h2)
end

section
variable {α : Type} [Field α] [DecidableEq α] {env : ReadEnv α δ} {ds ds' : List (Dataset α)} {mu mu' : MatchUp α δ}

theorem opened_embedded (he : EnumOk env.enumNat) (hc : ConsistentFiles ds) (hc' : ConsistentFiles ds') (h : openMatchUp env ds = .ok mu) (h' : openMatchUp env ds' = .ok mu')
    {σ : Nat → Nat} (hσ : SomeOf ds ds' σ) : ∃ β, Embedded mu mu' β ∧ ∀ b i d s c, mu'.BlockOf ds' b i d s c → mu.BlockOf ds (β b) (σ i) d s c := by
  have key : ∀ b, ∃ b0, b < mu'.numBlocks → ∃ i d s c, mu'.BlockOf ds' b i d s c ∧ mu.BlockOf ds b0 (σ i) d s c := by
    intro b
    by_cases hb : b < mu'.numBlocks
    · obtain ⟨i, d, s, c, hbo⟩ := blockOf_of hc' h' hb
      obtain ⟨b0, hb0⟩ := blockOf_exists hc h (i := σ i) (d := d) (s := s) (c := c) (hσ.index hbo.1).2 hbo.2.1 hbo.2.2.1
      exact ⟨b0, fun _ => ⟨i, d, s, c, hbo, hb0⟩⟩
    · exact ⟨0, fun hh => absurd hh hb⟩
  choose β hβ using key
  have hblocks : ∀ b i d s c, mu'.BlockOf ds' b i d s c → mu.BlockOf ds (β b) (σ i) d s c := by
    intro b i d s c hb
    obtain ⟨i', d', s', c', q1, q2⟩ := hβ b (hb.lt h')
    obtain ⟨rfl, rfl, rfl, rfl⟩ := q1.unique hc' hb
    exact q2
  refine ⟨β, ⟨?_, ?_, ?_, ?_⟩, hblocks⟩
  · intro b hb
    obtain ⟨_, _, _, _, _, q⟩ := hβ b hb
    exact q.lt h
  · intro b b' hb hb' hbb
    obtain ⟨i, d, s, c, q1, q2⟩ := hβ b hb
    obtain ⟨i', d', s', c', q1', q2'⟩ := hβ b' hb'
    rw [← hbb] at q2'
    obtain ⟨e1, rfl, rfl, rfl⟩ := q2.unique hc q2'
    have := hσ.inj i i' (hσ.index q1.1).1 (hσ.index q1'.1).1 e1
    subst this
    exact q1.inj hc' h' q1' rfl
  · intro b hb
    obtain ⟨i, d, s, c, q1, q2⟩ := hβ b hb
    rw [q1.len h', q2.len h]
  · intro b r b' r' hb hb' hr hr'
    obtain ⟨i, d, s, c, q1, q2⟩ := hβ b hb
    obtain ⟨i', d', s', c', q1', q2'⟩ := hβ b' hb'
    rw [q1.len h'] at hr
    rw [q1'.len h'] at hr'
    rw [declaredCov_files he hc' h' q1 q1' hr hr', declaredCov_files he hc h q2 q2' hr hr']
    unfold fileCov
    have : (i = i') ↔ σ i = σ i' := ⟨fun e => by rw [e], fun e => hσ.inj i i' (hσ.index q1.1).1 (hσ.index q1'.1).1 e⟩
    simp only [this]
end

section
variable {env : ReadEnv ℝ δ} {ds ds' : List (Dataset ℝ)} {sd : SensorData ℝ (SensorModel ℝ δ) (AdjModel ℝ)}

/-- What all files and some of them have in common. -/
structure Fewer (env : ReadEnv ℝ δ) (ds ds' : List (Dataset ℝ)) (sd : SensorData ℝ (SensorModel ℝ δ) (AdjModel ℝ)) (σ β : Nat → Nat) (labels clabels : List String) (m m' : Nat)
    (ms ms' : Evaluable ℝ δ) : Prop where
  part : SomeOf ds ds' σ
  consistent : ConsistentFiles ds
  consistent' : ConsistentFiles ds'
  opens : openMatchUpWith env defaultAdjustment ds sd = .ok ms
  opens' : openMatchUpWith env defaultAdjustment ds' sd = .ok ms'
  ready : ms.SolverReady labels clabels m
  ready' : ms'.SolverReady labels clabels m'
  embedded : Embedded ms.mu ms'.mu β
  blocks : ∀ b i d s c, ms'.mu.BlockOf ds' b i d s c → ms.mu.BlockOf ds (β b) (σ i) d s c
  block : ∀ b, b < ms'.mu.numBlocks → ∃ i d s c, ms'.mu.BlockOf ds' b i d s c ∧ ms'.mu.blockLen b = d.M
  exist : ∀ i d s c, ds'[i]? = some d → d.HasSide s → c < s.m → ∃ b, ms'.mu.BlockOf ds' b i d s c ∧ b < ms'.mu.numBlocks ∧ ms'.mu.blockLen b = d.M
  constants : ms'.constant = ms.constant
  params : ms'.a = ms.a
  ksl : ms.mu.ks.length = (ds.map (·.M)).sum
  ksl' : ms'.mu.ks.length = (ds'.map (·.M)).sum
  unck : ms.mu.unck = ds.map fun d => vector d.M fun r => env.rss (d.Kr r) (d.Ks r)
  unck' : ms'.mu.unck = ds'.map fun d => vector d.M fun r => env.rss (d.Kr r) (d.Ks r)
  unique : ∀ b b' i d s c, ms.mu.BlockOf ds b i d s c → ms.mu.BlockOf ds b' i d s c → b = b'

theorem fewer_sensors {mu mu' : MatchUp ℝ δ} {σ : Nat → Nat} (hσ : SomeOf ds ds' σ) (hnew : NoNewSensor ds ds') (h : openMatchUp env ds = .ok mu) (h' : openMatchUp env ds' = .ok mu') :
    ∀ s, s ∈ mu.idx.sensors ↔ s ∈ mu'.idx.sensors := by
  obtain ⟨x, mx, hi, _, b1, _⟩ := opened_tables h
  obtain ⟨x', mx', hi', _, b1', _⟩ := opened_tables h'
  intro s
  rw [b1, b1', hi.sens_mem, hi'.sens_mem]
  constructor
  · rintro ⟨t, ht, rfl⟩
    obtain ⟨d, hd, hs⟩ := mem_sides.1 ht
    obtain ⟨d', hd', s', hs', he⟩ := hnew d hd t hs
    exact ⟨s', mem_sides.2 ⟨d', hd', hs'⟩, he⟩
  · rintro ⟨t, ht, rfl⟩
    obtain ⟨d, hd, hs⟩ := mem_sides.1 ht
    exact ⟨t, mem_sides.2 ⟨d, hσ.mem hd, hs⟩, rfl⟩

theorem fewer (he : EnumOk env.enumNat) {m m' : Nat} {σ : Nat → Nat} (hσ : SomeOf ds ds' σ) (hnew : NoNewSensor ds ds') (hf : SolvableFiles ds sd m) (hf' : SolvableFiles ds' sd m')
    {ms ms' : Evaluable ℝ δ} (h : openMatchUpWith env defaultAdjustment ds sd = .ok ms) (h' : openMatchUpWith env defaultAdjustment ds' sd = .ok ms') :
    ∃ β labels clabels, Fewer env ds ds' sd σ β labels clabels m m' ms ms' := by
  have hc := hf.consistent
  have hc' := hf'.consistent
  obtain ⟨labels, clabels, hr⟩ := opened_solverReady he hf h
  obtain ⟨labels', clabels', hr'⟩ := opened_solverReady he hf' h'
  obtain ⟨mu, e, hmu, hex, hms⟩ := openMatchUpWith_inv h
  obtain ⟨mu', e', hmu', hex', hms'⟩ := openMatchUpWith_inv h'
  obtain ⟨e1, e2, e3, e4⟩ := extract_same (fewer_sensors hσ hnew hmu hmu') hex hex'
  have pa : ms'.a = ms.a := by rw [hms, hms']; exact e1
  have pc : ms'.constant = ms.constant := by rw [hms, hms']; exact e3
  have pl : ms'.mu.idx.parameter_sensor = ms.mu.idx.parameter_sensor := by rw [hms, hms']; exact congrArg some e2
  have pcl : ms'.mu.idx.constant_sensor = ms.mu.idx.constant_sensor := by rw [hms, hms']; exact congrArg some e4
  have hl : labels' = labels := by
    rw [hr.parameters.1, hr'.parameters.1] at pl
    exact Option.some.inj pl
  have hcl : clabels' = clabels := by
    rw [hr.constants, hr'.constants] at pcl
    exact Option.some.inj pcl
  subst hl hcl
  have sizes : ∀ {ds : List (Dataset ℝ)} {ms : Evaluable ℝ δ}, openMatchUpWith env defaultAdjustment ds sd = .ok ms → ms.mu.WF →
      ms.mu.ks.length = (ds.map (·.M)).sum ∧ ms.mu.unck = ds.map fun d => vector d.M fun r => env.rss (d.Kr r) (d.Ks r) := by
    intro ds ms h hw
    obtain ⟨mu, e, hmu, hex, rfl⟩ := openMatchUpWith_inv h
    obtain ⟨x, mx, hi, _, b1, b2, b3, b4, b5, _⟩ := opened_tables hmu
    obtain ⟨_, _, _, _, _, _, _, _, _, _, _, huk, _⟩ := openMatchUp_inv hmu
    have e1 : mu.ks.length = mu.idx.Nm.sum := hw.ks
    refine ⟨?_, huk⟩
    show mu.ks.length = _
    rw [e1, b5, hi.Nm]
  obtain ⟨k1, k2⟩ := sizes h hr.wf
  obtain ⟨k1', k2'⟩ := sizes h' hr'.wf
  obtain ⟨β, hβ, hβb⟩ := opened_embedded he hc hc' hmu hmu' hσ
  refine ⟨β, labels', clabels', hσ, hc, hc', h, h', hr, hr', ?_, ?_, ?_, ?_, pc, pa, k1, k1', k2, k2', ?_⟩
  · rw [hms, hms']
    exact ⟨hβ.maps, hβ.inj, hβ.len, hβ.cov⟩
  · rw [hms, hms']
    exact hβb
  · rw [hms']
    intro b hb
    obtain ⟨i, d, s, c, hb'⟩ := blockOf_of hc' hmu' (b := b) hb
    have hb2 := hb'.len hmu'
    exact ⟨i, d, s, c, hb', hb2⟩
  · rw [hms']
    intro i d s c hd hsd hcm
    obtain ⟨b, hb⟩ := blockOf_exists hc' hmu' hd hsd hcm
    have hb1 := MatchUp.BlockOf.len (mu := mu') hmu' hb
    have hb2 := MatchUp.BlockOf.lt (mu := mu') hmu' hb
    exact ⟨b, hb, hb2, hb1⟩
  · rw [hms]
    intro b b' i d s c hb hb'
    have := MatchUp.BlockOf.inj (mu := mu) hc hmu hb hb' rfl
    exact this

variable {σ β : Nat → Nat} {labels clabels : List String} {m m' : Nat} {ms ms' : Evaluable ℝ δ}

theorem Fewer.same (o : Fewer env ds ds' sd σ β labels clabels m m' ms ms') {v v' : List ℝ} :
    SameEstimates ds ds' σ ms.mu ms'.mu v v' ↔ ∀ b r, b < ms'.mu.numBlocks → r < ms'.mu.blockLen b → ms'.mu.elem v' b r = ms.mu.elem v (β b) r := by
  constructor
  · intro h b r hb hr
    obtain ⟨i, d, s, c, hbo, hM⟩ := o.block b hb
    exact h i d s c (β b) b (o.blocks _ _ _ _ _ hbo) hbo r (by rw [← hM]; exact hr)
  · intro h i d s c b b' hb hb' r hr
    obtain ⟨b2, h1, h2, h3⟩ := o.exist i d s c hb'.1 hb'.2.1 hb'.2.2.1
    have e := o.unique _ _ _ _ _ _ (o.blocks _ _ _ _ _ hb') hb
    rw [← e]
    have hb3 : b' < ms'.mu.numBlocks ∧ ms'.mu.blockLen b' = d.M := by
      obtain ⟨mu', e', hmu', hex', hms'⟩ := openMatchUpWith_inv o.opens'
      rw [hms'] at hb' ⊢
      have hb1 := MatchUp.BlockOf.len (mu := mu') hmu' hb'
      have hb2 := MatchUp.BlockOf.lt (mu := mu') hmu' hb'
      exact ⟨hb2, hb1⟩
    exact h b' r hb3.1 (by rw [hb3.2]; exact hr)

/-- K of the same measurements and parameters is the same. -/
theorem Fewer.kOf (o : Fewer env ds ds' sd σ β labels clabels m m' ms ms') (hn : ms.mu.Normalisable) (hn' : ms'.mu.Normalisable) {g g' : GN ℝ δ} (hg : g.Solves ms) (hg' : g'.Solves ms')
    {v v' a : List ℝ} (hv : v.length = ms.mu.values.length) (hv' : v'.length = ms'.mu.values.length) (ha : a.length = g.hd.a.length)
    (hs : SameEstimates ds ds' σ ms.mu ms'.mu v v') : ∃ k k', ms.kOf v a = .ok k ∧ ms'.kOf v' a = .ok k' ∧ SameK ds ds' σ k k' := by
  have hal : g'.hd.a.length = g.hd.a.length := by
    obtain ⟨N, n, hs⟩ := hg.setup o.ready
    obtain ⟨N', n', hs'⟩ := hg'.setup o.ready'
    rw [hs.sizes.2.1, hs'.sizes.2.1]
  obtain ⟨kk, k1, k2⟩ := kOf_files o.consistent o.opens o.ready hn hg hv ha
  obtain ⟨kk', k1', k2'⟩ := kOf_files o.consistent' o.opens' o.ready' hn' hg' hv' (ha.trans hal.symm)
  refine ⟨_, _, k1, k1', ?_⟩
  have hfl : ∀ {ds : List (Dataset ℝ)} {kk : Nat → List ℝ}, (∀ i d, ds[i]? = some d → (kk i).length = d.M) → ∀ i d r, ds[i]? = some d → r < d.M →
      ((List.range ds.length).map kk).flatten.getD (kIndex ds i r) 0 = (kk i).getD r 0 := by
    intro ds kk hl i d r hd hr
    have hi := (List.getElem?_eq_some_iff.1 hd).1
    have e : (List.range ds.length).map (fun i => (kk i).length) = ds.map (·.M) := (map_range_get fun i d hd => hl i d hd).symm
    have := flatten_getD (l := List.range ds.length) (M := fun i => (kk i).length) (f := kk) (fun _ _ => rfl) (i := i) (d := i) (by simp [hi]) (r := r) (by rw [hl i d hd]; exact hr)
    rw [e] at this
    exact this
  intro i d r hd hr
  obtain ⟨hi, hd0⟩ := o.part.index hd
  rw [hfl (fun i d hd => (k2' i d hd).1) i d r hd hr, hfl (fun i d hd => (k2 i d hd).1) (σ i) d r hd0 hr]
  obtain ⟨_, X1, X2, a1, a2, c1, c2, q1, q2, hkeq⟩ := k2 (σ i) d hd0
  obtain ⟨_, X1', X2', a1', a2', c1', c2', q1', q2', hkeq'⟩ := k2' i d hd
  have hX : ∀ (s : Side ℝ) (X X' : List (List ℝ)), d.HasSide s → ms.mu.Cols ds v (σ i) d s X → ms'.mu.Cols ds' v' i d s X' → X' = X := by
    intro s X X' hsd hX hX'
    apply List.ext_getElem?
    intro c
    by_cases hcm : c < s.m
    · obtain ⟨b, hb, hb1, hb2⟩ := o.exist i d s c hd hsd hcm
      rw [hX'.2 c b hb, hX.2 c (β b) (o.blocks _ _ _ _ _ hb)]
      congr 1
      unfold vector
      apply List.map_congr_left
      intro r hr
      exact o.same.1 hs b r hb1 (by rw [hb2]; exact List.mem_range.1 hr)
    · rw [List.getElem?_eq_none (by rw [hX'.1]; omega), List.getElem?_eq_none (by rw [hX.1]; omega)]
  have e1 := hX d.s1 X1 X1' (.inl rfl) c1 c1'
  have e2 := hX d.s2 X2 X2' (.inr rfl) c2 c2'
  rw [o.constants, e1] at q1'
  rw [o.constants, e2] at q2'
  rw [hkeq, hkeq', q1.unique q1', q2.unique q2']

/-- The derivatives of K of the fewer files are those of all files, and K of these files does not depend on the values of others. -/
theorem Fewer.derivatives (o : Fewer env ds ds' sd σ β labels clabels m m' ms ms') (hn : ms.mu.Normalisable) (hn' : ms'.mu.Normalisable) {g g' : GN ℝ δ} (hg : g.Solves ms)
    (hg' : g'.Solves ms') {v v' a : List ℝ} (hv : v.length = ms.mu.values.length) (hv' : v'.length = ms'.mu.values.length) (ha : a.length = g.hd.a.length)
    (hs : SameEstimates ds ds' σ ms.mu ms'.mu v v') {e : Fin ms'.mu.ks.length → Fin ms.mu.ks.length}
    (he : ∀ f : Fin ms'.mu.ks.length, ∃ i d r, ds'[i]? = some d ∧ r < d.M ∧ (f : Nat) = kIndex ds' i r ∧ ((e f : Fin _) : Nat) = kIndex ds (σ i) r)
    {B B' : Nat → Nat → Nat → ℝ} {A A' : Nat → Nat → ℝ} (hB : ms.KDerivatives v a B A) (hB' : ms'.KDerivatives v' a B' A') (f : Fin ms'.mu.ks.length) :
    (∀ b r, b < ms'.mu.numBlocks → r < ms'.mu.blockLen b → B (e f) (β b) r = B' f b r) ∧ (∀ j, j < a.length → A (e f) j = A' f j) ∧
    ∀ b r, b < ms.mu.numBlocks → r < ms.mu.blockLen b → (∀ b', b' < ms'.mu.numBlocks → β b' ≠ b) → B (e f) b r = 0 := by
  classical
  have hw := o.ready.wf.values
  have hw' := o.ready'.wf.values
  obtain ⟨i, d, r0, q1, q2, q3, q4⟩ := he f
  -- the directional derivatives agree
  have dir : ∀ dv dv' da : List ℝ, dv.length = v.length → dv'.length = v'.length → da.length = a.length →
      (∀ b r, b < ms'.mu.numBlocks → r < ms'.mu.blockLen b → ms'.mu.elem dv' b r = ms.mu.elem dv (β b) r) →
      ms.mu.pairing (B (e f)) (ms.mu.elem dv) + ∑ j ∈ Finset.range a.length, A (e f) j * da.getD j 0 =
        ms'.mu.pairing (B' f) (ms'.mu.elem dv') + ∑ j ∈ Finset.range a.length, A' f j * da.getD j 0 := by
    intro dv dv' da hdv hdv' hda hsd
    obtain ⟨F, hF, hFd⟩ := hB dv da hdv hda
    obtain ⟨F', hF', hFd'⟩ := hB' dv' da hdv' hda
    have e1 : (fun t => (F' t).getD f 0) = fun t => (F t).getD (e f) 0 := by
      funext t
      obtain ⟨k, k', h1, h2, h3⟩ := o.kOf hn hn' hg hg' (v := along v dv t) (v' := along v' dv' t) (a := along a da t) (by rw [along_length hdv.symm, hv])
        (by rw [along_length hdv'.symm, hv']) (by rw [along_length hda.symm, ha]) (o.same.2 fun b r hb hr => by
          rw [elem_along hdv'.symm, elem_along hdv.symm, o.same.1 hs b r hb hr, hsd b r hb hr])
      rw [hF t] at h1
      rw [hF' t] at h2
      cases h1
      cases h2
      have h1 := h3 i d r0 q1 q2
      rw [← q4, ← q3] at h1
      exact h1
    have d1 := hFd (e f) (e f).2
    have d2 := hFd' f f.2
    rw [e1] at d2
    exact d1.unique d2
  have zero : ∀ (A : Nat → ℝ), ∑ j ∈ Finset.range a.length, A j * (List.replicate a.length (0 : ℝ)).getD j 0 = 0 := by
    intro A
    refine Finset.sum_eq_zero fun j hj => ?_
    simp [List.getD, Finset.mem_range.1 hj]
  have pick : ∀ {mu : MatchUp ℝ δ} {b0 r0 : Nat} (h1 : b0 < mu.numBlocks) (h2 : r0 < mu.blockLen b0) (C z : Nat → Nat → ℝ)
      (hz : ∀ b r, b < mu.numBlocks → r < mu.blockLen b → z b r = if b = b0 ∧ r = r0 then 1 else 0), mu.pairing C z = C b0 r0 := by
    intro mu b0 r0 h1 h2 C z hz
    rw [pairing_eq, Finset.sum_eq_single (⟨b0, r0⟩ : Σ _ : Nat, Nat)]
    · rw [hz b0 r0 h1 h2, if_pos ⟨rfl, rfl⟩, mul_one]
    · rintro ⟨b, r⟩ hp hne
      obtain ⟨p1, p2⟩ := positions_lt hp
      rw [hz _ _ p1 p2, if_neg, mul_zero]
      rintro ⟨rfl, rfl⟩
      exact hne rfl
    · intro h
      exact absurd (positions_mem h1 h2) h
  have z' : ∀ {mu : MatchUp ℝ δ} (C z : Nat → Nat → ℝ) (hz : ∀ b r, b < mu.numBlocks → r < mu.blockLen b → z b r = 0), mu.pairing C z = 0 := by
    intro mu C z hz
    rw [pairing_eq]
    refine Finset.sum_eq_zero fun p hp => ?_
    obtain ⟨p1, p2⟩ := positions_lt hp
    rw [hz _ _ p1 p2, mul_zero]
  have unit : ∀ b r, b < ms.mu.numBlocks → r < ms.mu.blockLen b → ∃ dv dv' : List ℝ, dv.length = v.length ∧ dv'.length = v'.length ∧
      (∀ b1 r1, b1 < ms.mu.numBlocks → r1 < ms.mu.blockLen b1 → ms.mu.elem dv b1 r1 = if b1 = b ∧ r1 = r then 1 else 0) ∧
      ∀ b1 r1, b1 < ms'.mu.numBlocks → r1 < ms'.mu.blockLen b1 → ms'.mu.elem dv' b1 r1 = if β b1 = b ∧ r1 = r then 1 else 0 := by
    intro b r hb hr
    obtain ⟨dv, l1, l2⟩ := exists_values ms.mu fun b1 r1 => if b1 = b ∧ r1 = r then (1 : ℝ) else 0
    obtain ⟨dv', l1', l2'⟩ := exists_values ms'.mu fun b1 r1 => if β b1 = b ∧ r1 = r then (1 : ℝ) else 0
    exact ⟨dv, dv', by rw [l1, hv, hw], by rw [l1', hv', hw'], fun b1 r1 h1 h2 => l2 ⟨b1, r1⟩ (positions_mem h1 h2), fun b1 r1 h1 h2 => l2' ⟨b1, r1⟩ (positions_mem h1 h2)⟩
  refine ⟨?_, ?_, ?_⟩
  · intro b r hb hr
    have hb2 := o.embedded.maps b hb
    have hr2 : r < ms.mu.blockLen (β b) := by rw [← o.embedded.len b hb]; exact hr
    obtain ⟨dv, dv', l1, l1', l2, l2'⟩ := unit (β b) r hb2 hr2
    have := dir dv dv' (List.replicate a.length 0) l1 l1' (by simp) fun b1 r1 h1 h2 => by
      rw [l2' b1 r1 h1 h2, l2 (β b1) r1 (o.embedded.maps b1 h1) (by rw [← o.embedded.len b1 h1]; exact h2)]
    rw [zero (A (e f)), zero (A' f), pick hb2 hr2 _ _ l2, pick hb hr _ _ (fun b1 r1 h1 h2 => by
      rw [l2' b1 r1 h1 h2]
      refine if_congr ⟨fun h => ⟨o.embedded.inj _ _ h1 hb h.1, h.2⟩, fun h => ⟨by rw [h.1], h.2⟩⟩ rfl rfl)] at this
    simpa using this
  · intro j hj
    obtain ⟨dv, l1, l2⟩ := exists_values ms.mu fun _ _ => (0 : ℝ)
    obtain ⟨dv', l1', l2'⟩ := exists_values ms'.mu fun _ _ => (0 : ℝ)
    have z1 : ∀ b r, b < ms.mu.numBlocks → r < ms.mu.blockLen b → ms.mu.elem dv b r = 0 := fun b r h1 h2 => l2 ⟨b, r⟩ (positions_mem h1 h2)
    have z2 : ∀ b r, b < ms'.mu.numBlocks → r < ms'.mu.blockLen b → ms'.mu.elem dv' b r = 0 := fun b r h1 h2 => l2' ⟨b, r⟩ (positions_mem h1 h2)
    have := dir dv dv' (vector a.length fun q => if q = j then 1 else 0) (by rw [l1, hv, hw]) (by rw [l1', hv', hw']) (by simp) fun b1 r1 h1 h2 => by
      rw [z2 b1 r1 h1 h2, z1 (β b1) r1 (o.embedded.maps b1 h1) (by rw [← o.embedded.len b1 h1]; exact h2)]
    rw [z' _ _ z1, z' _ _ z2] at this
    have one : ∀ (A : Nat → ℝ), ∑ q ∈ Finset.range a.length, A q * (vector a.length fun q => if q = j then (1 : ℝ) else 0).getD q 0 = A j := by
      intro A
      rw [Finset.sum_eq_single j]
      · simp [vector, List.getD, hj]
      · intro q hq hne
        simp [vector, List.getD, Finset.mem_range.1 hq, hne]
      · intro h
        exact absurd (Finset.mem_range.2 hj) h
    rw [one (A (e f)), one (A' f)] at this
    simpa using this
  · intro b r hb hr hout
    obtain ⟨dv, dv', l1, l1', l2, l2'⟩ := unit b r hb hr
    have z2 : ∀ b1 r1, b1 < ms'.mu.numBlocks → r1 < ms'.mu.blockLen b1 → ms'.mu.elem dv' b1 r1 = 0 := fun b1 r1 h1 h2 => by
      rw [l2' b1 r1 h1 h2, if_neg fun h => hout b1 h1 h.1]
    have := dir dv dv' (List.replicate a.length 0) l1 l1' (by simp) fun b1 r1 h1 h2 => by
      rw [l2' b1 r1 h1 h2, l2 (β b1) r1 (o.embedded.maps b1 h1) (by rw [← o.embedded.len b1 h1]; exact h2)]
    rw [zero (A (e f)), zero (A' f), pick hb hr _ _ l2, z' _ _ z2] at this
    simpa using this

/-- The covariance of K of the fewer files is the part of that of all files. -/
theorem Fewer.kCov (o : Fewer env ds ds' sd σ β labels clabels m m' ms ms') {e : Fin ms'.mu.ks.length → Fin ms.mu.ks.length} (hinj : Function.Injective e)
    (he : ∀ f : Fin ms'.mu.ks.length, ∃ i d r, ds'[i]? = some d ∧ r < d.M ∧ (f : Nat) = kIndex ds' i r ∧ ((e f : Fin _) : Nat) = kIndex ds (σ i) r)
    {B B' : Nat → Nat → Nat → ℝ} (hB : ∀ (f : Fin ms'.mu.ks.length) b r, b < ms'.mu.numBlocks → r < ms'.mu.blockLen b → B (e f) (β b) r = B' f b r)
    (h0 : ∀ (f : Fin ms'.mu.ks.length) b r, b < ms.mu.numBlocks → r < ms.mu.blockLen b → (∀ b', b' < ms'.mu.numBlocks → β b' ≠ b) → B (e f) b r = 0) :
    kCovM ms'.mu B' = (kCovM ms.mu B).submatrix e e := by
  ext f f'
  show ms'.mu.kCov B' f f' = ms.mu.kCov B (e f) (e f')
  unfold MatchUp.kCov
  congr 1
  · have hff : (f : Nat) = f' ↔ ((e f : Fin _) : Nat) = e f' := by
      rw [Fin.val_inj, Fin.val_inj, hinj.eq_iff]
    have hu : ms'.mu.unck.flatten.getD f 0 = ms.mu.unck.flatten.getD (e f) 0 := by
      obtain ⟨i, d, r, h1, h2, h3, h4⟩ := he f
      rw [o.unck, o.unck', h3, h4]
      unfold kIndex
      rw [flatten_getD (fun d _ => vector_length _ _) h1 h2, flatten_getD (fun d _ => vector_length _ _) (o.part.index h1).2 h2]
    by_cases hf : (f : Nat) = f'
    · rw [if_pos hf, if_pos (hff.1 hf), hu]
    · rw [if_neg hf, if_neg fun h => hf (hff.2 h)]
  · rw [pairing_eq, pairing_eq, ← o.embedded.sum (fun b r => B (e f) b r * ms.mu.covMul (B (e f')) b r) fun b r h1 h2 h3 => by rw [h0 f b r h1 h2 h3, zero_mul]]
    refine sum_congr rfl fun p hp => ?_
    obtain ⟨h1, h2⟩ := positions_lt hp
    rw [hB f _ _ h1 h2]
    congr 1
    rw [covMul_eq, covMul_eq, ← o.embedded.sum (fun b r => ms.mu.declaredCov (β p.1) p.2 b r * B (e f') b r) fun b r q1 q2 q3 => by rw [h0 f' b r q1 q2 q3, mul_zero]]
    refine sum_congr rfl fun p' hp' => ?_
    obtain ⟨h1', h2'⟩ := positions_lt hp'
    rw [o.embedded.cov _ _ _ _ h1 h1' h2 h2', hB f' _ _ h1' h2']
end
end Verif
