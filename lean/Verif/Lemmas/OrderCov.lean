import Verif.Spec.OrderCov
import Verif.Props.Order
import Verif.Props.Propagation
/-
K of reordered files, its derivatives and its covariance.
-/
set_option autoImplicit false
namespace Verif
open Finset (sum_congr)
variable {δ : Type}

theorem Reordered.of_perm {α : Type} {ds ds' : List (Dataset α)} (hp : ds.Perm ds') : ∃ σ, Reordered ds ds' σ := by
  obtain ⟨σ, s1, s2, s3⟩ := perm_index hp
  have hlen := hp.length_eq
  rw [← hlen] at s1 s2 s3
  exact ⟨σ, hlen.symm, s1, s2, s3⟩

theorem Reordered.index {α : Type} {ds ds' : List (Dataset α)} {σ : Nat → Nat} (h : Reordered ds ds' σ) {i : Nat} {d : Dataset α} (hd : ds'[i]? = some d) :
    i < ds.length ∧ ds[σ i]? = some d := by
  have hi : i < ds.length := by rw [← h.length]; exact (List.getElem?_eq_some_iff.1 hd).1
  exact ⟨hi, by rw [← h.file i hi]; exact hd⟩

theorem Reordered.onto {α : Type} {ds ds' : List (Dataset α)} {σ : Nat → Nat} (h : Reordered ds ds' σ) {j : Nat} (hj : j < ds.length) : ∃ i, i < ds.length ∧ σ i = j := by
  have : j ∈ (Finset.range ds.length).image σ := by
    rw [range_onto h.maps h.inj]
    exact Finset.mem_range.2 hj
  obtain ⟨i, hi, e⟩ := Finset.mem_image.1 this
  exact ⟨i, Finset.mem_range.1 hi, e⟩

/-- Elements of a joined list. -/
theorem flatten_getD {α β : Type} [Zero α] {l : List β} {M : β → Nat} {f : β → List α} (hl : ∀ d ∈ l, (f d).length = M d) {i : Nat} {d : β} (hd : l[i]? = some d) {r : Nat} (hr : r < M d) :
    (l.map f).flatten.getD (((l.map M).take i).sum + r) 0 = (f d).getD r 0 := by
  induction l generalizing i with
  | nil => simp at hd
  | cons x l ih =>
    rcases i with _ | i
    · simp only [List.getElem?_cons_zero, Option.some.injEq] at hd
      subst hd
      have := hl x (by simp)
      simp only [List.map_cons, List.flatten_cons, List.take_zero, List.sum_nil, Nat.zero_add, List.getD]
      rw [List.getElem?_append_left (by rw [this]; exact hr)]
    · simp only [List.getElem?_cons_succ] at hd
      have h0 := hl x (by simp)
      have := ih (fun d hd => hl d (by simp [hd])) hd
      simp only [List.map_cons, List.flatten_cons, List.take_succ_cons, List.sum_cons, List.getD] at this ⊢
      rw [List.getElem?_append_right (by omega), h0, show M x + ((l.map M).take i).sum + r - M x = ((l.map M).take i).sum + r by omega]
      exact this

/-- Every index is that of a match-up of a file. -/
theorem kIndex_exists {α : Type} {ds : List (Dataset α)} {f : Nat} (hf : f < (ds.map (·.M)).sum) : ∃ i d r, ds[i]? = some d ∧ r < d.M ∧ f = kIndex ds i r := by
  induction ds generalizing f with
  | nil => simp at hf
  | cons x ds ih =>
    simp only [List.map_cons, List.sum_cons] at hf
    by_cases h : f < x.M
    · exact ⟨0, x, f, rfl, h, by simp [kIndex]⟩
    · obtain ⟨i, d, r, h1, h2, h3⟩ := ih (f := f - x.M) (by omega)
      refine ⟨i + 1, d, r, h1, h2, ?_⟩
      simp only [kIndex, List.map_cons, List.take_succ_cons, List.sum_cons] at h3 ⊢
      omega

theorem kIndex_lt {α : Type} {ds : List (Dataset α)} {i : Nat} {d : Dataset α} (hd : ds[i]? = some d) {r : Nat} (hr : r < d.M) : kIndex ds i r < (ds.map (·.M)).sum := by
  have h1 : (ds.map (·.M))[i]? = some d.M := by rw [List.getElem?_map, hd]; rfl
  have h2 := take_succ_sum _ h1
  have h3 := take_sum_le_take_sum (ds.map (·.M)) (show i + 1 ≤ (ds.map (·.M)).length from (List.getElem?_eq_some_iff.1 h1).1)
  rw [List.take_length] at h3
  unfold kIndex
  omega

theorem kIndex_inj {α : Type} {ds : List (Dataset α)} {i i' : Nat} {d d' : Dataset α} (hd : ds[i]? = some d) (hd' : ds[i']? = some d') {r r' : Nat} (hr : r < d.M) (hr' : r' < d'.M)
    (h : kIndex ds i r = kIndex ds i' r') : i = i' ∧ r = r' := by
  have key : ∀ {i i' : Nat} {d : Dataset α} {r r' : Nat}, ds[i]? = some d → r < d.M → kIndex ds i r = kIndex ds i' r' → ¬ i < i' := by
    intro i i' d r r' hd hr h hlt
    have h1 : (ds.map (·.M))[i]? = some d.M := by rw [List.getElem?_map, hd]; rfl
    have h2 := take_succ_sum _ h1
    have h3 : ((ds.map (·.M)).take (i + 1)).sum ≤ ((ds.map (·.M)).take i').sum := by
      have : (ds.map (·.M)).take (i + 1) = ((ds.map (·.M)).take i').take (i + 1) := by rw [List.take_take, Nat.min_eq_left hlt]
      rw [this]
      exact List.Sublist.sum_le_sum (List.take_sublist _ _) (fun _ _ => Nat.zero_le _)
    unfold kIndex at h
    omega
  have h1 := key hd hr h
  have h2 := key hd' hr' h.symm
  have : i = i' := by omega
  subst this
  unfold kIndex at h
  exact ⟨rfl, by omega⟩

/-- The indices of K of the files in the one order and in the other. -/
theorem Reordered.equiv {α : Type} {ds ds' : List (Dataset α)} {σ : Nat → Nat} (h : Reordered ds ds' σ) {T T' : Nat} (hT : T = (ds.map (·.M)).sum) (hT' : T' = (ds'.map (·.M)).sum) :
    ∃ e : Fin T' ≃ Fin T, ∀ (f : Fin T'), ∃ i d r, ds'[i]? = some d ∧ r < d.M ∧ (f : Nat) = kIndex ds' i r ∧ ((e f : Fin T) : Nat) = kIndex ds (σ i) r := by
  subst hT hT'
  have key : ∀ f : Fin (ds'.map (·.M)).sum, ∃ g : Fin (ds.map (·.M)).sum, ∃ i d r, ds'[i]? = some d ∧ r < d.M ∧ (f : Nat) = kIndex ds' i r ∧ (g : Nat) = kIndex ds (σ i) r := by
    intro f
    obtain ⟨i, d, r, h1, h2, h3⟩ := kIndex_exists f.2
    exact ⟨⟨kIndex ds (σ i) r, kIndex_lt (h.index h1).2 h2⟩, i, d, r, h1, h2, h3, rfl⟩
  choose e he using key
  have hbij : Function.Bijective e := by
    constructor
    · intro f f' hff
      obtain ⟨i, d, r, h1, h2, h3, h4⟩ := he f
      obtain ⟨i', d', r', h1', h2', h3', h4'⟩ := he f'
      rw [hff, h4'] at h4
      obtain ⟨k1, k2⟩ := kIndex_inj (h.index h1').2 (h.index h1).2 h2' h2 h4
      have := h.inj i' i (h.index h1').1 (h.index h1).1 k1
      subst this k2
      exact Fin.ext (h3.trans h3'.symm)
    · intro g
      obtain ⟨j, d, r, h1, h2, h3⟩ := kIndex_exists g.2
      obtain ⟨i, hi, rfl⟩ := h.onto (List.getElem?_eq_some_iff.1 h1).1
      have hd : ds'[i]? = some d := by rw [h.file i hi]; exact h1
      refine ⟨⟨kIndex ds' i r, kIndex_lt hd h2⟩, ?_⟩
      obtain ⟨i', d', r', h1', h2', h3', h4'⟩ := he ⟨kIndex ds' i r, kIndex_lt hd h2⟩
      obtain ⟨rfl, rfl⟩ := kIndex_inj hd h1' h2 h2' h3'
      exact Fin.ext (h4'.trans h3.symm)
  exact ⟨Equiv.ofBijective e hbij, he⟩

section
variable {env : ReadEnv ℝ δ} {ds ds' : List (Dataset ℝ)} {sd : SensorData ℝ (SensorModel ℝ δ) (AdjModel ℝ)}

/-- K as a function of the values and the parameters, file by file. -/
theorem kOf_files (hc : ConsistentFiles ds) {ms : Evaluable ℝ δ} (h : openMatchUpWith env defaultAdjustment ds sd = .ok ms) {labels clabels : List String} {m : Nat}
    (hr : ms.SolverReady labels clabels m) (hn : ms.mu.Normalisable) {g : GN ℝ δ} (hg : g.Solves ms) {v a : List ℝ} (hv : v.length = ms.mu.values.length)
    (ha : a.length = g.hd.a.length) : ∃ kk : Nat → List ℝ, ms.kOf v a = .ok ((List.range ds.length).map kk).flatten ∧
      ∀ i d, ds[i]? = some d → (kk i).length = d.M ∧ FileK sd labels clabels a ms.constant ms.mu ds v i d (kk i) := by
  obtain ⟨N, n, hs⟩ := hg.setup hr
  obtain ⟨t1, t2, t3⟩ := hs.sizes
  obtain ⟨q, hq, _⟩ := C85_definite hr hn (d := List.zipWith (· - ·) v ms.mu.values) (by rw [List.length_zipWith, hv, Nat.min_self])
  obtain ⟨x, f, est, k, hx, hd, hf1, h1, hve, h2, _⟩ := C85_attained hr hg hn hv ha hq
  have hxl := hx.trans hs.xlen
  rw [t1, t3] at h1
  rw [t1] at hd
  obtain ⟨kk, hk1, hk2⟩ := estimate_files hc h hs hxl h1 h2
  obtain ⟨est3, u1, u2, u3, u4, u5, u6, u7, u8, u9⟩ := estimate_ok hs hxl
  rw [h1] at u1; cases u1
  have hkk := kOf_estimate u2 u5 u6 u7 u8
  rw [h2, u4, hve, hd, hk1] at hkk
  rw [hve, hd] at hk2
  exact ⟨kk, hkk.symm, hk2⟩

/-- What the two orders have in common. -/
structure Orders (env : ReadEnv ℝ δ) (ds ds' : List (Dataset ℝ)) (sd : SensorData ℝ (SensorModel ℝ δ) (AdjModel ℝ)) (σ β : Nat → Nat) (labels clabels : List String) (m : Nat)
    (ms ms' : Evaluable ℝ δ) : Prop where
  reordered : Reordered ds ds' σ
  consistent : ConsistentFiles ds
  consistent' : ConsistentFiles ds'
  opens : openMatchUpWith env defaultAdjustment ds sd = .ok ms
  opens' : openMatchUpWith env defaultAdjustment ds' sd = .ok ms'
  ready : ms.SolverReady labels clabels m
  ready' : ms'.SolverReady labels clabels m
  renumbered : Renumbered ms.mu ms'.mu β
  blocks : ∀ b i d s c, ms'.mu.BlockOf ds' b i d s c → ms.mu.BlockOf ds (β b) (σ i) d s c
  block : ∀ b, b < ms'.mu.numBlocks → ∃ i d s c, ms'.mu.BlockOf ds' b i d s c ∧ ms'.mu.blockLen b = d.M
  exist : ∀ i d s c, ds'[i]? = some d → d.HasSide s → c < s.m → ∃ b, ms'.mu.BlockOf ds' b i d s c ∧ b < ms'.mu.numBlocks ∧ ms'.mu.blockLen b = d.M
  constants : ms'.constant = ms.constant
  params : ms'.a = ms.a
  ksl : ms.mu.ks.length = (ds.map (·.M)).sum
  ksl' : ms'.mu.ks.length = (ds'.map (·.M)).sum
  unck : ms.mu.unck = ds.map fun d => vector d.M fun r => env.rss (d.Kr r) (d.Ks r)
  unck' : ms'.mu.unck = ds'.map fun d => vector d.M fun r => env.rss (d.Kr r) (d.Ks r)
  unique : ∀ b b' i d s c, ms.mu.BlockOf ds b i d s c → ms.mu.BlockOf ds b' i d s c → b = b'

theorem orders (he : EnumOk env.enumNat) {m : Nat} {σ : Nat → Nat} (hp : ds.Perm ds') (hσ : Reordered ds ds' σ) (hf : SolvableFiles ds sd m) {ms ms' : Evaluable ℝ δ}
    (h : openMatchUpWith env defaultAdjustment ds sd = .ok ms) (h' : openMatchUpWith env defaultAdjustment ds' sd = .ok ms') :
    ∃ β labels clabels, Orders env ds ds' sd σ β labels clabels m ms ms' := by
  have hf' := hf.perm hp
  have hc := hf.consistent
  have hc' := hf'.consistent
  obtain ⟨labels, clabels, hr⟩ := opened_solverReady he hf h
  obtain ⟨labels', clabels', hr'⟩ := opened_solverReady he hf' h'
  obtain ⟨pa, pc, pl, pcl⟩ := C86_parameters hp h h'
  have hl : labels' = labels := by
    rw [hr.parameters.1, hr'.parameters.1] at pl
    exact Option.some.inj pl
  have hcl : clabels' = clabels := by
    rw [hr.constants, hr'.constants] at pcl
    exact Option.some.inj pcl
  subst hl hcl
  have sizes : ∀ {ds : List (Dataset ℝ)} {ms : Evaluable ℝ δ}, openMatchUpWith env defaultAdjustment ds sd = .ok ms → ms.mu.WF →
      ms.mu.ks.length = (ds.map (·.M)).sum ∧ ms.mu.unck = ds.map fun d => vector d.M fun r => env.rss (d.Kr r) (d.Ks r) := by
    intro ds ms h hw
    obtain ⟨mu, e, hmu, hex, rfl⟩ := openMatchUpWith_inv h
    obtain ⟨x, mx, hi, _, b1, b2, b3, b4, b5, _⟩ := opened_tables hmu
    obtain ⟨_, _, _, _, _, _, _, _, _, _, _, huk, _⟩ := openMatchUp_inv hmu
    have e1 : mu.ks.length = mu.idx.Nm.sum := hw.ks
    refine ⟨?_, huk⟩
    show mu.ks.length = _
    rw [e1, b5, hi.Nm]
  obtain ⟨k1, k2⟩ := sizes h hr.wf
  obtain ⟨k1', k2'⟩ := sizes h' hr'.wf
  obtain ⟨mu, e, hmu, hex, hms⟩ := openMatchUpWith_inv h
  obtain ⟨mu', e', hmu', hex', hms'⟩ := openMatchUpWith_inv h'
  obtain ⟨β, hβ, hβb⟩ := opened_renumbered he hc hc' hmu hmu' hσ.length hσ.maps hσ.inj hσ.file
  refine ⟨β, labels', clabels', hσ, hc, hc', h, h', hr, hr', ?_, ?_, ?_, ?_, pc, pa, k1, k1', k2, k2', ?_⟩
  · rw [hms, hms']
    exact ⟨hβ.maps, hβ.inj, hβ.onto, hβ.len, hβ.cov⟩
  · rw [hms, hms']
    exact hβb
  · rw [hms']
    intro b hb
    obtain ⟨i, d, s, c, hb'⟩ := blockOf_of hc' hmu' (b := b) hb
    have hb2 := hb'.len hmu'
    exact ⟨i, d, s, c, hb', hb2⟩
  · rw [hms']
    intro i d s c hd hsd hcm
    obtain ⟨b, hb⟩ := blockOf_exists hc' hmu' hd hsd hcm
    have hb1 := MatchUp.BlockOf.len (mu := mu') hmu' hb
    have hb2 := MatchUp.BlockOf.lt (mu := mu') hmu' hb
    exact ⟨b, hb, hb2, hb1⟩
  · rw [hms]
    intro b b' i d s c hb hb'
    have := MatchUp.BlockOf.inj (mu := mu) hc hmu hb hb' rfl
    exact this

variable {σ β : Nat → Nat} {labels clabels : List String} {m : Nat} {ms ms' : Evaluable ℝ δ}

theorem Orders.same (o : Orders env ds ds' sd σ β labels clabels m ms ms') {v v' : List ℝ} :
    SameEstimates ds ds' σ ms.mu ms'.mu v v' ↔ ∀ b r, b < ms'.mu.numBlocks → r < ms'.mu.blockLen b → ms'.mu.elem v' b r = ms.mu.elem v (β b) r := by
  constructor
  · intro h b r hb hr
    obtain ⟨i, d, s, c, hbo, hM⟩ := o.block b hb
    exact h i d s c (β b) b (o.blocks _ _ _ _ _ hbo) hbo r (by rw [← hM]; exact hr)
  · intro h i d s c b b' hb hb' r hr
    obtain ⟨b2, h1, h2, h3⟩ := o.exist i d s c hb'.1 hb'.2.1 hb'.2.2.1
    have e := o.unique _ _ _ _ _ _ (o.blocks _ _ _ _ _ hb') hb
    rw [← e]
    have hb3 : b' < ms'.mu.numBlocks ∧ ms'.mu.blockLen b' = d.M := by
      obtain ⟨mu', e', hmu', hex', hms'⟩ := openMatchUpWith_inv o.opens'
      rw [hms'] at hb' ⊢
      have hb1 := MatchUp.BlockOf.len (mu := mu') hmu' hb'
      have hb2 := MatchUp.BlockOf.lt (mu := mu') hmu' hb'
      exact ⟨hb2, hb1⟩
    exact h b' r hb3.1 (by rw [hb3.2]; exact hr)

/-- K of the same measurements and parameters is the same. -/
theorem Orders.kOf (o : Orders env ds ds' sd σ β labels clabels m ms ms') (hn : ms.mu.Normalisable) (hn' : ms'.mu.Normalisable) {g g' : GN ℝ δ} (hg : g.Solves ms) (hg' : g'.Solves ms')
    {v v' a : List ℝ} (hv : v.length = ms.mu.values.length) (hv' : v'.length = ms'.mu.values.length) (ha : a.length = g.hd.a.length)
    (hs : SameEstimates ds ds' σ ms.mu ms'.mu v v') : ∃ k k', ms.kOf v a = .ok k ∧ ms'.kOf v' a = .ok k' ∧ SameK ds ds' σ k k' := by
  have hal : g'.hd.a.length = g.hd.a.length := by
    obtain ⟨N, n, hs⟩ := hg.setup o.ready
    obtain ⟨N', n', hs'⟩ := hg'.setup o.ready'
    rw [hs.sizes.2.1, hs'.sizes.2.1]
  obtain ⟨kk, k1, k2⟩ := kOf_files o.consistent o.opens o.ready hn hg hv ha
  obtain ⟨kk', k1', k2'⟩ := kOf_files o.consistent' o.opens' o.ready' hn' hg' hv' (ha.trans hal.symm)
  refine ⟨_, _, k1, k1', ?_⟩
  have hfl : ∀ {ds : List (Dataset ℝ)} {kk : Nat → List ℝ}, (∀ i d, ds[i]? = some d → (kk i).length = d.M) → ∀ i d r, ds[i]? = some d → r < d.M →
      ((List.range ds.length).map kk).flatten.getD (kIndex ds i r) 0 = (kk i).getD r 0 := by
    intro ds kk hl i d r hd hr
    have hi := (List.getElem?_eq_some_iff.1 hd).1
    have e : (List.range ds.length).map (fun i => (kk i).length) = ds.map (·.M) := (map_range_get fun i d hd => hl i d hd).symm
    have := flatten_getD (l := List.range ds.length) (M := fun i => (kk i).length) (f := kk) (fun _ _ => rfl) (i := i) (d := i) (by simp [hi]) (r := r) (by rw [hl i d hd]; exact hr)
    rw [e] at this
    exact this
  intro i d r hd hr
  obtain ⟨hi, hd0⟩ := o.reordered.index hd
  rw [hfl (fun i d hd => (k2' i d hd).1) i d r hd hr, hfl (fun i d hd => (k2 i d hd).1) (σ i) d r hd0 hr]
  obtain ⟨_, X1, X2, a1, a2, c1, c2, q1, q2, hkeq⟩ := k2 (σ i) d hd0
  obtain ⟨_, X1', X2', a1', a2', c1', c2', q1', q2', hkeq'⟩ := k2' i d hd
  have hX : ∀ (s : Side ℝ) (X X' : List (List ℝ)), d.HasSide s → ms.mu.Cols ds v (σ i) d s X → ms'.mu.Cols ds' v' i d s X' → X' = X := by
    intro s X X' hsd hX hX'
    apply List.ext_getElem?
    intro c
    by_cases hcm : c < s.m
    · obtain ⟨b, hb, hb1, hb2⟩ := o.exist i d s c hd hsd hcm
      rw [hX'.2 c b hb, hX.2 c (β b) (o.blocks _ _ _ _ _ hb)]
      congr 1
      unfold vector
      apply List.map_congr_left
      intro r hr
      exact o.same.1 hs b r hb1 (by rw [hb2]; exact List.mem_range.1 hr)
    · rw [List.getElem?_eq_none (by rw [hX'.1]; omega), List.getElem?_eq_none (by rw [hX.1]; omega)]
  have e1 := hX d.s1 X1 X1' (.inl rfl) c1 c1'
  have e2 := hX d.s2 X2 X2' (.inr rfl) c2 c2'
  rw [o.constants, e1] at q1'
  rw [o.constants, e2] at q2'
  rw [hkeq, hkeq', q1.unique q1', q2.unique q2']

/-- The derivatives of K are the same. -/
theorem Orders.derivatives (o : Orders env ds ds' sd σ β labels clabels m ms ms') (hn : ms.mu.Normalisable) (hn' : ms'.mu.Normalisable) {g g' : GN ℝ δ} (hg : g.Solves ms)
    (hg' : g'.Solves ms') {v v' a : List ℝ} (hv : v.length = ms.mu.values.length) (hv' : v'.length = ms'.mu.values.length) (ha : a.length = g.hd.a.length)
    (hs : SameEstimates ds ds' σ ms.mu ms'.mu v v') {e : Fin ms'.mu.ks.length ≃ Fin ms.mu.ks.length}
    (he : ∀ f : Fin ms'.mu.ks.length, ∃ i d r, ds'[i]? = some d ∧ r < d.M ∧ (f : Nat) = kIndex ds' i r ∧ ((e f : Fin _) : Nat) = kIndex ds (σ i) r)
    {E : Nat → Nat} (hE : ∀ f : Fin ms'.mu.ks.length, E f = e f)
    {B : Nat → Nat → Nat → ℝ} {A : Nat → Nat → ℝ} (hB : ms.KDerivatives v a B A) : ms'.KDerivatives v' a (fun f b r => B (E f) (β b) r) fun f j => A (E f) j := by
  intro dv' da hdv hda
  have hinv : ∀ b, ∃ b', b < ms.mu.numBlocks → b' < ms'.mu.numBlocks ∧ β b' = b := by
    intro b
    by_cases hb : b < ms.mu.numBlocks
    · obtain ⟨b', h1, h2⟩ := o.renumbered.onto b hb
      exact ⟨b', fun _ => ⟨h1, h2⟩⟩
    · exact ⟨0, fun h => absurd h hb⟩
  choose γ hγ using hinv
  have hγβ : ∀ b', b' < ms'.mu.numBlocks → γ (β b') = b' := by
    intro b' hb'
    obtain ⟨h1, h2⟩ := hγ (β b') (o.renumbered.maps b' hb')
    exact o.renumbered.inj _ _ h1 hb' h2
  obtain ⟨dv, hdl, hde⟩ := exists_values ms.mu fun b r => ms'.mu.elem dv' (γ b) r
  have hw := o.ready.wf.values
  have hw' := o.ready'.wf.values
  have hdl' : dv.length = v.length := by rw [hdl, hv, hw]
  have hsd : ∀ b r, b < ms'.mu.numBlocks → r < ms'.mu.blockLen b → ms'.mu.elem dv' b r = ms.mu.elem dv (β b) r := by
    intro b r hb hr
    have := hde ⟨β b, r⟩ (positions_mem (o.renumbered.maps b hb) (by rw [← o.renumbered.len b hb]; exact hr))
    simp only at this
    rw [this, hγβ b hb]
  obtain ⟨F, hF, hFd⟩ := hB dv da hdl' hda
  have key : ∀ t, ∃ k', ms'.kOf (along v' dv' t) (along a da t) = .ok k' ∧ SameK ds ds' σ (F t) k' := by
    intro t
    obtain ⟨k, k', h1, h2, h3⟩ := o.kOf hn hn' hg hg' (v := along v dv t) (v' := along v' dv' t) (a := along a da t) (by rw [along_length hdl'.symm, hv])
      (by rw [along_length hdv.symm, hv']) (by rw [along_length hda.symm, ha]) (o.same.2 fun b r hb hr => by
        rw [elem_along hdv.symm, elem_along hdl'.symm, o.same.1 hs b r hb hr, hsd b r hb hr])
    rw [hF t] at h1
    cases h1
    exact ⟨k', h2, h3⟩
  choose F' hF' hsame using key
  refine ⟨F', hF', ?_⟩
  intro i hi
  obtain ⟨j, d, r, q1, q2, q3, q4⟩ := he ⟨i, hi⟩
  have hEi : E i = e ⟨i, hi⟩ := hE ⟨i, hi⟩
  have := hFd (E i) (by rw [hEi]; exact (e ⟨i, hi⟩).2)
  have e1 : (fun t => (F' t).getD i 0) = fun t => (F t).getD (E i) 0 := by
    funext t
    have h1 := hsame t j d r q1 q2
    rw [← q4, ← hEi, ← q3] at h1
    exact h1
  rw [e1]
  refine this.congr_deriv ?_
  congr 1
  rw [pairing_eq, pairing_eq, ← o.renumbered.sum fun b r => B (E i) b r * ms.mu.elem dv b r]
  refine sum_congr rfl fun p hp => ?_
  obtain ⟨h1, h2⟩ := positions_lt hp
  rw [hsd _ _ h1 h2]

/-- The covariance of K is the same. -/
theorem Orders.kCov (o : Orders env ds ds' sd σ β labels clabels m ms ms') {e : Fin ms'.mu.ks.length ≃ Fin ms.mu.ks.length}
    (he : ∀ f : Fin ms'.mu.ks.length, ∃ i d r, ds'[i]? = some d ∧ r < d.M ∧ (f : Nat) = kIndex ds' i r ∧ ((e f : Fin _) : Nat) = kIndex ds (σ i) r)
    {E : Nat → Nat} (hE : ∀ f : Fin ms'.mu.ks.length, E f = e f) (B : Nat → Nat → Nat → ℝ) :
    kCovM ms'.mu (fun f b r => B (E f) (β b) r) = (kCovM ms.mu B).submatrix e e := by
  ext f f'
  show ms'.mu.kCov (fun f b r => B (E f) (β b) r) f f' = ms.mu.kCov B (e f) (e f')
  unfold MatchUp.kCov
  congr 1
  · have hff : (f : Nat) = f' ↔ ((e f : Fin _) : Nat) = e f' := by
      rw [Fin.val_inj, Fin.val_inj, e.apply_eq_iff_eq]
    have hu : ms'.mu.unck.flatten.getD f 0 = ms.mu.unck.flatten.getD (e f) 0 := by
      obtain ⟨i, d, r, h1, h2, h3, h4⟩ := he f
      rw [o.unck, o.unck', h3, h4]
      unfold kIndex
      rw [flatten_getD (fun d _ => vector_length _ _) h1 h2, flatten_getD (fun d _ => vector_length _ _) (o.reordered.index h1).2 h2]
    by_cases hf : (f : Nat) = f'
    · rw [if_pos hf, if_pos (hff.1 hf), hu]
    · rw [if_neg hf, if_neg fun h => hf (hff.2 h)]
  · rw [pairing_eq, pairing_eq]
    simp only [hE]
    rw [← o.renumbered.sum fun b r => B (e f) b r * ms.mu.covMul (B (e f')) b r]
    refine sum_congr rfl fun p hp => ?_
    obtain ⟨h1, h2⟩ := positions_lt hp
    congr 1
    rw [covMul_eq, covMul_eq, ← o.renumbered.sum fun b r => ms.mu.declaredCov (β p.1) p.2 b r * B (e f') b r]
    refine sum_congr rfl fun p' hp' => ?_
    obtain ⟨h1', h2'⟩ := positions_lt hp'
    rw [o.renumbered.cov _ _ _ _ h1 h1' h2 h2']

/-- The propagated covariance is the same. -/
theorem Orders.propagated (o : Orders env ds ds' sd σ β labels clabels m ms ms') {e : Fin ms'.mu.ks.length ≃ Fin ms.mu.ks.length}
    (he : ∀ f : Fin ms'.mu.ks.length, ∃ i d r, ds'[i]? = some d ∧ r < d.M ∧ (f : Nat) = kIndex ds' i r ∧ ((e f : Fin _) : Nat) = kIndex ds (σ i) r)
    {E : Nat → Nat} (hE : ∀ f : Fin ms'.mu.ks.length, E f = e f) (P : Nat) (B : Nat → Nat → Nat → ℝ) (A : Nat → Nat → ℝ) :
    propagatedCov ms'.mu P (fun f b r => B (E f) (β b) r) (fun f j => A (E f) j) = propagatedCov ms.mu P B A := by
  have hA : kParM ms'.mu.ks.length P (fun f j => A (E f) j) = (kParM ms.mu.ks.length P A).submatrix e id := by
    ext f j
    show A (E f) j = A (e f) j
    rw [hE]
  unfold propagatedCov
  rw [o.kCov he hE, hA, Matrix.inv_submatrix_equiv, Matrix.transpose_submatrix, Matrix.submatrix_mul_equiv, Matrix.submatrix_mul_equiv, Matrix.submatrix_id_id]
end
end Verif
