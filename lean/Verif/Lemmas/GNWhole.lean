import Verif.Lemmas.GNSide
/-
The whole products `J P x` and `(J P)ᵀ y` of `calc_prod_JPx`.
-/
set_option autoImplicit false
namespace Verif
open Finset (sum_congr)
variable {α δ : Type}

/-- Derivative data of one series: its first row, number of match-ups, K uncertainty, adjustment derivatives and measurand derivatives of the
two sensors. -/
structure SeriesJ (α : Type) where
  lo : Nat
  k : Nat
  uK : List α
  JB1 : List α
  JB2 : List α
  dR1 : Nat → Nat → α
  dR2 : Nat → Nat → α

/-- Shape conditions under which the products are defined. -/
structure GN.Shaped [Field α] (g : GN α δ) (ctx : ProdCtx) (labels : List String) (N_mu : Nat) (js : List (SeriesJ α)) : Prop where
  ctx_eq : g.prodCtx = .ok ctx
  mu_eq : pyLast g.hd.mu.idx.cNm = .ok N_mu
  labels_eq : g.hd.mu.idx.parameter_sensor = some labels
  a_len : g.hd.a.length = labels.length
  S_len : g.S.length = labels.length
  S_row : ∀ r ∈ g.S, r.length = labels.length
  sys : ctx.n_uS ≤ ctx.N_var
  len : js.length = g.hd.mu.idx.Im.length
  series : ∀ (i : Nat) pair j, g.hd.mu.idx.Im[i]? = some pair → js[i]? = some j →
    g.hd.mu.idx.cNm[i]? = some j.lo ∧ g.hd.mu.idx.cNm[i + 1]? = some (j.lo + j.k) ∧ j.lo + j.k ≤ N_mu ∧ g.hd.mu.unck[i]? = some j.uK ∧
    j.uK.length = j.k ∧ g.SideOk ctx j.k (i + 1) pair.1 j.JB1 j.dR1 ∧ g.SideOk ctx j.k (i + 1) pair.2 j.JB2 j.dR2

/-- Rows of the Jacobian belonging to one series. -/
def SeriesJ.mat [Field α] (N_var : Nat) (j : SeriesJ α) (r c : Nat) : α :=
  covM (N_var + j.lo) j.k (fun i => -1 * ent j.JB1 i / ent j.uK i) j.dR1 r c +
  covM (N_var + j.lo) j.k (fun i => 1 * ent j.JB2 i / ent j.uK i) j.dR2 r c

/-- The Jacobian. -/
def jacM [Field α] (N_var : Nat) (js : List (SeriesJ α)) (r c : Nat) : α :=
  (if r < N_var ∧ r = c then 1 else 0) + (js.map fun j => j.mat N_var r c).sum

/-- The preconditioner matrix. -/
def GN.preM [Field α] (g : GN α δ) (N_var : Nat) (r c : Nat) : α :=
  if r < N_var then (if r = c then 1 else 0) else if N_var ≤ c then ent (g.S.getD (r - N_var) []) (c - N_var) else 0

theorem GN.prodCtx_var {g : GN α δ} {ctx : ProdCtx} (h : g.prodCtx = .ok ctx) : pyLast g.hd.mu.idx.idx = .ok ctx.N_var := by
  unfold GN.prodCtx at h
  obtain ⟨N, hN, h⟩ := bind_ok.1 h
  obtain ⟨_, _, h⟩ := bind_ok.1 h
  obtain ⟨_, _, h⟩ := bind_ok.1 h
  obtain ⟨_, _, h⟩ := bind_ok.1 h
  rw [← pure_ok.1 h]
  exact hN

theorem take_eq_vector [Zero α] {l : List α} {n : Nat} (h : n ≤ l.length) : slice l 0 n = vector n (ent l) := by
  rw [slice_eq_vector h]
  apply vector_congr
  intro i _
  simp

theorem vector_append [Zero α] {n k : Nat} {f g : Nat → α} : vector n f ++ vector k g = vector (n + k) fun i => if i < n then f i else g (i - n) := by
  apply List.ext_getElem
  · simp
  · intro i h1 h2
    simp only [vector, List.getElem_map, List.getElem_range, List.getElem_append, List.length_map, List.length_range]
    split <;> rfl

theorem sum_split [Field α] {N k : Nat} (f : Nat → α) : ∑ i ∈ Finset.range (N + k), f i = ∑ i ∈ Finset.range N, f i + ∑ i ∈ Finset.range k, f (N + i) :=
  Finset.sum_range_add f N k

theorem matVec_eq [Field α] {S : List (List α)} {v : List α} {n : Nat} (hS : ∀ r ∈ S, r.length = n) (hv : v.length = n) :
    matVec S v = .ok (vector S.length fun r => ∑ c ∈ Finset.range n, ent (S.getD r []) c * ent v c) := by
  have key : ∀ T : List (List α), (∀ r ∈ T, r.length = n) → T.mapM (fun r => npDot r v) = .ok (T.map fun r => ∑ c ∈ Finset.range n, ent r c * ent v c) := by
    intro T
    induction T with
    | nil => intro _; rfl
    | cons r T ih =>
      intro h
      rw [List.mapM_cons, npDot_vector (h r (by simp)) hv, ih fun r hr => h r (by simp [hr])]
      rfl
  unfold matVec
  rw [key S hS]
  congr 1
  apply List.ext_getElem
  · simp
  · intro i h1 h2
    have : i < S.length := by simpa using h1
    simp [vector, List.getD, this]

theorem matTVec_eq [Field α] {S : List (List α)} {v : List α} (hv : v.length = S.length) :
    matTVec S v = .ok (vector S.length fun c => ∑ r ∈ Finset.range S.length, ent (S.getD r []) c * ent v r) := by
  unfold matTVec
  rw [if_pos hv.symm]
  congr 1
  apply vector_congr
  intro c _
  rw [← list_sum_range]
  congr 1
  apply List.ext_getElem
  · simp [hv]
  · intro r h1 h2
    have hr' : r < S.length := by simpa using h2
    simp [List.getD, hr', hv, ent]

theorem calcPx_fwd [Field α] {g : GN α δ} {ctx : ProdCtx} {labels : List String} {N_mu : Nat} {js : List (SeriesJ α)} (h : g.Shaped ctx labels N_mu js)
    {x : List α} (hx : x.length = ctx.N_var + labels.length) :
    g.calcPx false x = .ok (vector (ctx.N_var + labels.length) fun r => ∑ c ∈ Finset.range (ctx.N_var + labels.length), g.preM ctx.N_var r c * ent x c) := by
  unfold GN.calcPx
  rw [GN.prodCtx_var h.ctx_eq]
  simp only [bind, Except.bind, Bool.false_eq_true, if_false]
  rw [slice_eq_vector (by rw [h.a_len, hx]), h.a_len, matVec_eq h.S_row (by simp), h.S_len, take_eq_vector (by omega)]
  simp only [pure, Except.pure]
  rw [vector_append]
  congr 1
  apply vector_congr
  intro r hr
  unfold GN.preM
  by_cases hrv : r < ctx.N_var
  · simp only [if_pos hrv, ite_mul, one_mul, zero_mul]
    rw [Finset.sum_ite_eq _ r fun c => ent x c]
    simp [hr]
  · simp only [if_neg hrv]
    rw [sum_split]
    have h0 : ∑ i ∈ Finset.range ctx.N_var, (if ctx.N_var ≤ i then ent (g.S.getD (r - ctx.N_var) []) (i - ctx.N_var) else 0) * ent x i = 0 := by
      apply Finset.sum_eq_zero
      intro c hc
      have hc' := Finset.mem_range.1 hc
      rw [if_neg (by omega), zero_mul]
    rw [h0, zero_add]
    refine sum_congr rfl fun c hc => ?_
    have hc' := Finset.mem_range.1 hc
    rw [ent_vector (by omega), if_pos (by omega), Nat.add_sub_cancel_left]

theorem calcPx_bwd [Field α] {g : GN α δ} {ctx : ProdCtx} {labels : List String} {N_mu : Nat} {js : List (SeriesJ α)} (h : g.Shaped ctx labels N_mu js)
    {y : List α} (hy : y.length = ctx.N_var + labels.length) :
    g.calcPx true y = .ok (vector (ctx.N_var + labels.length) fun c => ∑ r ∈ Finset.range (ctx.N_var + labels.length), g.preM ctx.N_var r c * ent y r) := by
  unfold GN.calcPx
  rw [GN.prodCtx_var h.ctx_eq]
  simp only [bind, Except.bind, if_true]
  rw [slice_eq_vector (by rw [h.a_len, hy]), h.a_len, matTVec_eq (by simp [h.S_len]), h.S_len, take_eq_vector (by omega)]
  simp only [pure, Except.pure]
  rw [vector_append]
  congr 1
  apply vector_congr
  intro c hc
  unfold GN.preM
  by_cases hcv : c < ctx.N_var
  · rw [if_pos hcv, sum_split]
    have h2 : ∑ i ∈ Finset.range labels.length, (if ctx.N_var + i < ctx.N_var then (if ctx.N_var + i = c then (1 : α) else 0)
        else if ctx.N_var ≤ c then ent (g.S.getD (ctx.N_var + i - ctx.N_var) []) (c - ctx.N_var) else 0) * ent y (ctx.N_var + i) = 0 := by
      apply Finset.sum_eq_zero
      intro i _
      rw [if_neg (by omega), if_neg (by omega), zero_mul]
    rw [h2, add_zero]
    have h3 : ∀ r ∈ Finset.range ctx.N_var, (if r < ctx.N_var then (if r = c then (1 : α) else 0)
        else if ctx.N_var ≤ c then ent (g.S.getD (r - ctx.N_var) []) (c - ctx.N_var) else 0) * ent y r = if r = c then ent y r else 0 := by
      intro r hr
      rw [if_pos (Finset.mem_range.1 hr)]
      split <;> simp
    rw [sum_congr rfl h3, Finset.sum_ite_eq' _ c fun r => ent y r]
    simp [hcv]
  · rw [if_neg hcv, sum_split]
    have h2 : ∑ r ∈ Finset.range ctx.N_var, (if r < ctx.N_var then (if r = c then (1 : α) else 0)
        else if ctx.N_var ≤ c then ent (g.S.getD (r - ctx.N_var) []) (c - ctx.N_var) else 0) * ent y r = 0 := by
      apply Finset.sum_eq_zero
      intro r hr
      have := Finset.mem_range.1 hr
      rw [if_pos this, if_neg (by omega), zero_mul]
    rw [h2, zero_add]
    refine sum_congr rfl fun r hr => ?_
    have hr' := Finset.mem_range.1 hr
    rw [ent_vector (by omega), if_neg (by omega), if_pos (by omega), Nat.add_sub_cancel_left]

/-- The loop over the series. -/
theorem upd_series [Field α] {g : GN α δ} {ctx : ProdCtx} {labels : List String} {N_mu : Nat} {js : List (SeriesJ α)} (h : g.Shaped ctx labels N_mu js) :
    Upd (ctx.N_var + labels.length) (ctx.N_var + N_mu) (fun x F => g.hd.mu.idx.Im.zipIdx.foldlM (g.prodSeries false ctx x) F)
      (fun y B => g.hd.mu.idx.Im.zipIdx.foldlM (g.prodSeries true ctx y) B) fun r c => (js.map fun j => j.mat ctx.N_var r c).sum := by
  have hf := Upd.foldl (n := ctx.N_var + labels.length) (m := ctx.N_var + N_mu) (l := g.hd.mu.idx.Im.zipIdx)
    (fw := fun p x F => g.prodSeries false ctx x F p) (bw := fun p y B => g.prodSeries true ctx y B p)
    (M := fun p => (js.getD p.2 ⟨0, 0, [], [], [], fun _ _ => 0, fun _ _ => 0⟩).mat ctx.N_var)
    (fun p hp => by
      obtain ⟨pair, i⟩ := p
      rw [List.mem_zipIdx_iff_getElem?] at hp
      simp only at hp
      have hi : i < js.length := by
        rw [h.len]
        exact (List.getElem?_eq_some_iff.1 hp).1
      have hj : js[i]? = some (js[i]) := by simp [hi]
      obtain ⟨h1, h2, h3, h4, h5, h6, h7⟩ := h.series i pair _ hp hj
      have e1 := upd_side (n := ctx.N_var + labels.length) (m := ctx.N_var + N_mu) (a := ctx.N_var + js[i].lo) (s := -1) h6 h.labels_eq rfl (by omega) h5 h.sys
      have e2 := upd_side (n := ctx.N_var + labels.length) (m := ctx.N_var + N_mu) (a := ctx.N_var + js[i].lo) (s := 1) h7 h.labels_eq rfl (by omega) h5 h.sys
      have e := e1.comp e2
      have hg : js.getD i ⟨0, 0, [], [], [], fun _ _ => 0, fun _ _ => 0⟩ = js[i] := by simp [List.getD, hi]
      simp only [hg]
      unfold GN.prodSeries
      simp only [pyGet_some h1, pyGet_some h2, pyGet_some h4, bind, Except.bind]
      have hassoc : ctx.N_var + (js[i].lo + js[i].k) = ctx.N_var + js[i].lo + js[i].k := by omega
      simp only [hassoc]
      exact e)
  have hM : (fun r c => (g.hd.mu.idx.Im.zipIdx.map fun p => (js.getD p.2 ⟨0, 0, [], [], [], fun _ _ => 0, fun _ _ => 0⟩).mat ctx.N_var r c).sum) =
      fun r c => (js.map fun j => j.mat ctx.N_var r c).sum := by
    funext r c
    congr 1
    apply List.ext_getElem
    · simp [h.len]
    · intro i h1 h2
      have : i < js.length := by simpa using h2
      simp [List.getD, this]
  rw [hM] at hf
  exact hf

/-- Both products, with the Jacobian and the preconditioner as matrices. -/
theorem prod_fwd [Field α] {g : GN α δ} {ctx : ProdCtx} {labels : List String} {N_mu : Nat} {js : List (SeriesJ α)} (h : g.Shaped ctx labels N_mu js)
    {x : List α} (hx : x.length = ctx.N_var + labels.length) :
    g.prod false x = .ok (vector (ctx.N_var + N_mu) fun r => ∑ c ∈ Finset.range (ctx.N_var + labels.length), jacM ctx.N_var js r c *
      ∑ d ∈ Finset.range (ctx.N_var + labels.length), g.preM ctx.N_var c d * ent x d) := by
  unfold GN.prod
  rw [h.mu_eq, h.ctx_eq]
  simp only [bind, Except.bind, Bool.false_eq_true, if_false]
  rw [calcPx_fwd h hx]
  simp only []
  generalize hP : (fun r => ∑ c ∈ Finset.range (ctx.N_var + labels.length), g.preM ctx.N_var r c * ent x c) = px
  have hpx : ∀ r, ∑ c ∈ Finset.range (ctx.N_var + labels.length), g.preM ctx.N_var r c * ent x c = px r := fun r => congrFun hP r
  simp only [hpx]
  rw [take_eq_vector (by simp)]
  have hset := setSlice_vector (l := List.replicate (ctx.N_var + N_mu) (0 : α)) (a := 0) (k := ctx.N_var)
    (v := vector ctx.N_var (ent (vector (ctx.N_var + labels.length) px))) (by simp) (by simp)
  rw [Nat.zero_add] at hset
  rw [hset]
  simp only []
  rw [(upd_series h).fwd _ _ (by simp) (by simp)]
  simp only [pure, Except.pure]
  congr 1
  apply vector_congr
  intro r hr
  rw [ent_vector (by simpa using hr)]
  unfold jacM
  simp only [add_mul, Finset.sum_add_distrib]
  have hd : (if 0 ≤ r ∧ r < ctx.N_var then ent (vector ctx.N_var (ent (vector (ctx.N_var + labels.length) px))) (r - 0)
      else ent (List.replicate (ctx.N_var + N_mu) (0 : α)) r) =
      ∑ c ∈ Finset.range (ctx.N_var + labels.length), (if r < ctx.N_var ∧ r = c then (1 : α) else 0) * px c := by
    by_cases hrv : r < ctx.N_var
    · rw [if_pos ⟨Nat.zero_le _, hrv⟩, Nat.sub_zero, ent_vector hrv, ent_vector (by omega)]
      simp only [hrv, true_and, ite_mul, one_mul, zero_mul]
      rw [Finset.sum_ite_eq _ r fun c => px c]
      simp; omega
    · rw [if_neg (by omega)]
      simp only [hrv, false_and, if_false, zero_mul, Finset.sum_const_zero]
      simp [ent, List.getD, hr]
  rw [hd]
  congr 1
  refine sum_congr rfl fun c hc => ?_
  rw [ent_vector (Finset.mem_range.1 hc)]

theorem prod_bwd [Field α] {g : GN α δ} {ctx : ProdCtx} {labels : List String} {N_mu : Nat} {js : List (SeriesJ α)} (h : g.Shaped ctx labels N_mu js)
    {y : List α} (hy : y.length = ctx.N_var + N_mu) :
    g.prod true y = .ok (vector (ctx.N_var + labels.length) fun d => ∑ c ∈ Finset.range (ctx.N_var + labels.length), g.preM ctx.N_var c d *
      ∑ r ∈ Finset.range (ctx.N_var + N_mu), jacM ctx.N_var js r c * ent y r) := by
  unfold GN.prod
  rw [h.mu_eq, h.ctx_eq]
  simp only [bind, Except.bind, if_true]
  rw [take_eq_vector (by omega)]
  have hset := setSlice_vector (l := List.replicate (ctx.N_var + g.hd.a.length) (0 : α)) (a := 0) (k := ctx.N_var)
    (v := vector ctx.N_var (ent y)) (by simp) (by simp)
  rw [Nat.zero_add] at hset
  rw [hset]
  simp only []
  rw [(upd_series h).bwd _ _ hy (by simp [h.a_len])]
  simp only []
  rw [calcPx_bwd h (by simp)]
  congr 1
  apply vector_congr
  intro d hd
  refine sum_congr rfl fun c hc => ?_
  have hc' := Finset.mem_range.1 hc
  rw [ent_vector hc', ent_vector (by simpa [h.a_len] using hc')]
  congr 1
  unfold jacM
  simp only [add_mul, Finset.sum_add_distrib]
  congr 1
  by_cases hcv : c < ctx.N_var
  · rw [if_pos ⟨Nat.zero_le _, hcv⟩, Nat.sub_zero, ent_vector hcv]
    have : ∀ r ∈ Finset.range (ctx.N_var + N_mu), (if r < ctx.N_var ∧ r = c then (1 : α) else 0) * ent y r = if r = c then ent y r else 0 := by
      intro r _
      by_cases hrc : r = c
      · subst hrc; simp [hcv]
      · simp [hrc]
    rw [sum_congr rfl this, Finset.sum_ite_eq' _ c fun r => ent y r, if_pos (Finset.mem_range.2 (by omega))]
  · rw [if_neg (by omega)]
    rw [Finset.sum_eq_zero]
    · simp [ent, List.getD, h.a_len, hc']
    · intro r _
      rw [if_neg (by omega), zero_mul]

end Verif
