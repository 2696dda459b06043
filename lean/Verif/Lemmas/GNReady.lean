import Verif.Lemmas.GNWhole
import Verif.Spec.Solver
import Verif.Props.Transform
/-
A solver-ready match-up satisfies the shape conditions of the products.
-/
set_option autoImplicit false
namespace Verif
open Finset (sum_congr)
variable {α δ : Type}

/-- Un-normalising a consistent block multiplies by its matrix. -/
theorem unconvBlock_vector [Field α] {mu : MatchUp α δ} {N_var n_uS k b ib nb : Nat} {u : UncBlock α} {x : List α} (h : mu.BlockOk N_var n_uS k b)
    (hs : n_uS ≤ N_var) (hx : N_var ≤ x.length) (hib : mu.idx.idx[b]? = some ib) (hnb : mu.idx.N_var[b]? = some nb) (hu : mu.unc[b]? = some u) :
    unconvBlock mu.w_matrices mu.u_matrices N_var n_uS x u (slice x ib (ib + nb)) =
      .ok (vector k fun i => ∑ c ∈ Finset.range x.length, mu.unconvM N_var n_uS k b i c * ent x c) := by
  obtain ⟨ib', nb', u', hib', hnb', hu', hle, hk⟩ := h
  rw [hib] at hib'; cases hib'
  rw [hnb] at hnb'; cases hnb'
  rw [hu] at hu'; cases hu'
  have hgetD : mu.idx.idx.getD b 0 = ib := by simp [List.getD, hib]
  have hsl : slice x ib (ib + nb) = vector nb fun i => ent x (ib + i) := by
    rw [slice_eq_vector (by omega)]; congr 1; omega
  have hdiag : ∀ (uR : List α) i, nb = k → i < k →
      ∑ c ∈ Finset.range x.length, gatherM k (fun j => ib + j) (diagM (ent uR)) i c * ent x c = ent x (ib + i) * ent uR i := by
    intro uR i hnk hi
    rw [gatherM_apply (fun j hj => by omega)]
    simp only [diagM, ite_mul, zero_mul]
    rw [Finset.sum_ite_eq (Finset.range k) i fun j => ent uR i * ent x (ib + j)]
    simp [hi, mul_comm]
  have hsysx : ∀ q : Nat, 1 ≤ q → q ≤ n_uS → u.uS_i = some q → pyGetInt x ((N_var : Int) - n_uS - 1 + q) = .ok (ent x (sysPos N_var n_uS (some q))) := by
    intro q h1 h2 _
    rw [sys_int h1 h2 hs, pyGetInt_nat, pyGet_ent]
    simp only [sysPos, Option.getD_some]; omega
  have hsysm : ∀ (q : Nat) (f : Nat → α) i, 1 ≤ q → q ≤ n_uS →
      ∑ c ∈ Finset.range x.length, gatherM 1 (fun _ => sysPos N_var n_uS (some q)) (fun i _ => f i) i c * ent x c = f i * ent x (sysPos N_var n_uS (some q)) := by
    intro q f i h1 h2
    rw [gatherM_apply (fun j hj => by simp only [sysPos, Option.getD_some]; omega)]
    simp
  unfold unconvBlock MatchUp.unconvM
  simp only [hu, hgetD]
  rw [hsl]
  cases hun : u.unc with
  | independent uR =>
    simp only [hun] at hk
    obtain ⟨hl, rfl⟩ := hk
    simp only []
    rw [npZip_ent (n := nb) (by simp) hl]
    congr 1
    apply vector_congr
    intro i hi
    rw [hdiag uR i rfl hi, ent_vector hi]
  | systematic uR uS =>
    simp only [hun] at hk
    obtain ⟨hl, hlS, rfl, q, hq, h1, h2⟩ := hk
    simp only [hq, bind, Except.bind]
    rw [hsysx q h1 h2 hq]
    simp only []
    rw [npZip_ent (n := nb) (by simp) hl]
    simp only []
    rw [npZip_ent (n := nb) (by simp) (by simpa using hlS)]
    congr 1
    apply vector_congr
    intro i hi
    simp only [add_mul, Finset.sum_add_distrib]
    rw [hdiag uR i rfl hi, hsysm q _ i h1 h2, ent_vector hi, ent_vector hi, ent_map_mul, mul_comm (ent uS i)]
  | structured w_i u_i =>
    simp only [hun] at hk
    obtain ⟨w, uv, hw, huv, hsh, hr, hc, rfl⟩ := hk
    simp only [getSlot_some hw, getSlot_some huv, bind, Except.bind, hw, huv]
    rw [npZip_ent (n := w.ncols) hc (by simp)]
    simp only []
    rw [csrDot_vector hsh (by simp), hr]
    congr 1
    apply vector_congr
    intro i hi
    rw [gatherM_apply (fun j hj => by omega)]
    refine sum_congr rfl fun c hc => ?_
    have := Finset.mem_range.1 hc
    rw [ent_vector this, ent_vector this]
    ring
  | structuredSystematic w_i u_i uS =>
    simp only [hun] at hk
    obtain ⟨⟨w, uv, hw, huv, hsh, hr, hc, rfl⟩, q, hq, h1, h2⟩ := hk
    simp only [hq, bind, Except.bind]
    rw [hsysx q h1 h2 hq]
    simp only [getSlot_some hw, getSlot_some huv, hw, huv]
    rw [npZip_ent (n := w.ncols) hc (by simp)]
    simp only [map_vector]
    rw [csrDot_vector hsh (by simp), hr]
    congr 1
    apply vector_congr
    intro i hi
    simp only [add_mul, Finset.sum_add_distrib]
    rw [hsysm q _ i h1 h2, gatherM_apply (fun j hj => by omega), Finset.sum_mul, ← Finset.sum_add_distrib]
    refine sum_congr rfl fun c hc => ?_
    have := Finset.mem_range.1 hc
    rw [ent_vector this, ent_vector this]
    ring

theorem blocks_get {x : Idx} {b s n c : Nat} (h : x.blocks[b]? = some (s, n, c)) :
    x.n_sensor[b]? = some s ∧ x.n_mu[b]? = some n ∧ x.n_cov[b]? = some c := by
  unfold Idx.blocks at h
  simp only [List.getElem?_zip_eq_some] at h
  exact h

theorem normalise_ok [Field α] {ρ σ : Type} {ms hd : MatchUpS α δ ρ σ} (h : ms.normalise = .ok hd) : ∃ nm, transformRun ms.mu = .ok nm ∧ hd = { ms with mu := nm } := by
  unfold MatchUpS.normalise at h
  obtain ⟨nm, h1, h2⟩ := bind_ok.1 h
  exact ⟨nm, h1, (pure_ok.1 h2).symm⟩

/-- A block of the normalised match-up. -/
theorem ready_block [Field α] {ms : Evaluable α δ} {labels clabels : List String} {m n : Nat} {nm : MatchUp α δ} {N : List Nat}
    (h : ms.SolverReady labels clabels m) (hf : RunFacts ms.mu nm N n) {b k : Nat} (hk : ms.mu.idx.N_var[b]? = some k) :
    nm.BlockOk (N.sum + n) n k b := by
  obtain ⟨r1, r2, r3⟩ := hf.reads
  have hblt : b < ms.mu.unc.length := by
    rw [h.wf.unc, ← h.wf.idx.len]; exact (List.getElem?_eq_some_iff.1 hk).1
  have hu : ms.mu.unc[b]? = some ms.mu.unc[b] := List.getElem?_eq_getElem hblt
  obtain ⟨m', hm', hsz⟩ := hf.sizes b k _ hu hk
  have hfit := h.blocks b k _ hu hk
  have hblt' : b < N.length := by rw [hf.len]; exact hblt
  have hstart : nm.idx.idx[b]? = some (N.take b).sum := by have := r1 b (by rw [r2]; omega); rw [r2] at this; exact this
  have hle : (N.take b).sum + m' ≤ N.sum + n := by
    have h1 := take_succ_sum N hm'
    have h2 := take_sum_le_take_sum N (show b + 1 ≤ N.length by omega)
    rw [List.take_length] at h2
    omega
  refine ⟨_, m', _, hstart, by rw [r2]; exact hm', by rw [hf.unc]; exact hu, hle, ?_⟩
  obtain ⟨hsys, _⟩ := sysNums_ok hf.sys
  have hmem := List.getElem_mem hblt
  generalize ms.mu.unc[b] = u at *
  unfold UncBlock.Fits at hfit
  rw [hf.ws, hf.us]
  cases hun : u.unc with
  | independent uR =>
    simp only [hun] at hfit hsz ⊢
    unfold normSize at hsz; cases hsz
    exact ⟨hfit, rfl⟩
  | systematic uR uS =>
    simp only [hun] at hfit hsz ⊢
    unfold normSize at hsz; cases hsz
    obtain ⟨h1, h2, q, h3, h4⟩ := hfit
    obtain ⟨q', h5, h6⟩ := hsys u hmem (by simp [hun, Unc.typeID])
    rw [h3] at h5; cases h5
    exact ⟨h1, h2, rfl, q, h3, h4, h6⟩
  | structured w_i u_i =>
    simp only [hun] at hfit hsz ⊢
    obtain ⟨w, uv, h1, h2, h3, h4, h5⟩ := hfit
    unfold normSize at hsz
    simp only [getSlot_some h2, bind, Except.bind, pure, Except.pure] at hsz
    cases hsz
    exact ⟨w, uv, h1, h2, h3, h4, h5, h5⟩
  | structuredSystematic w_i u_i uS =>
    simp only [hun] at hfit hsz ⊢
    obtain ⟨⟨w, uv, h1, h2, h3, h4, h5⟩, q, hq, hq1⟩ := hfit
    unfold normSize at hsz
    simp only [getSlot_some h2, bind, Except.bind, pure, Except.pure] at hsz
    cases hsz
    obtain ⟨q', h6, h7⟩ := hsys u hmem (by simp [hun, Unc.typeID])
    rw [hq] at h6; cases h6
    exact ⟨⟨w, uv, h1, h2, h3, h4, h5, h5⟩, q, hq, hq1, h7⟩

theorem covNumbers_mem {x : Idx} {s n q c : Nat} (h : x.covNumbers s n = (List.range q).map (· + 1)) (hc : c < q) : (s, n, c + 1) ∈ x.blocks := by
  have : c + 1 ∈ x.covNumbers s n := by rw [h]; exact List.mem_map.2 ⟨c, List.mem_range.2 hc, rfl⟩
  unfold Idx.covNumbers at this
  obtain ⟨⟨s', n', c'⟩, hm, rfl⟩ := List.mem_map.1 this
  rw [List.mem_filter] at hm
  obtain ⟨hm, hb⟩ := hm
  simp only [Bool.and_eq_true, beq_iff_eq] at hb
  obtain ⟨rfl, rfl⟩ := hb
  exact hm

/-- The position of a block in the table. -/
def blkOf (x : Idx) (s n c : Nat) : Nat := (pyIndex x.blocks (s, n, c + 1)).toOption.getD 0

theorem blkOf_get {x : Idx} {s n q c : Nat} (h : x.covNumbers s n = (List.range q).map (· + 1)) (hc : c < q) :
    pyIndex x.blocks (s, n, c + 1) = .ok (blkOf x s n c) ∧ x.blocks[blkOf x s n c]? = some (s, n, c + 1) := by
  obtain ⟨b, hp⟩ : ∃ b, pyIndex x.blocks (s, n, c + 1) = .ok b := ⟨_, pyIndex_of_mem (covNumbers_mem h hc)⟩
  have : blkOf x s n c = b := by simp [blkOf, hp, Except.toOption]
  rw [this]
  exact ⟨hp, pyIndex_ok hp⟩

theorem block_size {x : Idx} (hwf : x.WF) {b s n c k : Nat} (hb : x.blocks[b]? = some (s, n, c)) (hk : x.Nm[n - 1]? = some k) : x.N_var[b]? = some k := by
  obtain ⟨_, h2, _⟩ := blocks_get hb
  obtain ⟨_, M, h3, h4⟩ := hwf.block b n h2
  rw [hk] at h3; cases h3
  exact h4

theorem RunFacts.blocks_eq [Field α] {mu nm : MatchUp α δ} {N : List Nat} {n : Nat} (hf : RunFacts mu nm N n) : nm.idx.blocks = mu.idx.blocks := by
  rw [hf.idx]; rfl

/-- The covariates of one sensor at the solver's estimate. -/
theorem ready_unconvert [Field α] {ms : Evaluable α δ} {labels clabels : List String} {m n : Nat} {nm : MatchUp α δ} {N : List Nat}
    (h : ms.SolverReady labels clabels m) (hf : RunFacts ms.mu nm N n) {s i q k : Nat} (hq : ms.mu.idx.sensor_ms[s]? = some q)
    (hcov : ms.mu.idx.covNumbers s (i + 1) = (List.range q).map (· + 1)) (hk : ms.mu.idx.Nm[i]? = some k) {x : List α}
    (hx : N.sum + n ≤ x.length) :
    unconvertXs nm.w_matrices nm.u_matrices x nm.unc nm.idx s (i + 1) = .ok ((List.range q).map fun c => vector k fun r =>
      ∑ j ∈ Finset.range x.length, nm.unconvM (N.sum + n) n k (blkOf ms.mu.idx s (i + 1) c) r j * ent x j) := by
  obtain ⟨r1, r2, r3⟩ := hf.reads
  unfold unconvertXs
  have e1 : nm.idx.sensor_ms = ms.mu.idx.sensor_ms := by rw [hf.idx]
  have e2 : nm.idx.Nm = ms.mu.idx.Nm := by rw [hf.idx]
  rw [e1, pyGet_some hq, hf.unc, hf.sys, e2, Nat.add_sub_cancel, pyGet_some hk]
  simp only [bind, Except.bind]
  apply mapM_ok_of
  intro c hc
  have hc' := List.mem_range.1 hc
  obtain ⟨hp, hb⟩ := blkOf_get hcov hc'
  have hsz := block_size h.wf.idx hb (by simpa using hk)
  have hok := ready_block h hf hsz
  obtain ⟨ib, nb, u, hib, hnb, hu, hle, _⟩ := id hok
  rw [hf.blocks_eq, hp]
  simp only []
  rw [pyGet_some hib]
  simp only []
  rw [pyGet_some hnb]
  simp only []
  rw [← hf.unc, pyGet_some hu]
  simp only []
  rw [pyGet_some r3]
  simp only []
  rw [unconvBlock_vector hok (by omega) hx hib hnb hu]
  simp only []
  have := setSlice_vector (l := List.replicate k (0 : α)) (a := 0) (k := k)
    (v := vector k fun r => ∑ j ∈ Finset.range x.length, nm.unconvM (N.sum + n) n k (blkOf ms.mu.idx s (i + 1) c) r j * ent x j) (by simp) (by simp)
  rw [Nat.zero_add] at this
  rw [this]
  congr 1
  rw [List.length_replicate]
  apply vector_congr
  intro r hr
  rw [if_pos ⟨Nat.zero_le _, hr⟩, Nat.sub_zero, ent_vector hr]

theorem labelled_length {labels : List String} {vals : List α} (h : vals.length = labels.length) (name : String) :
    (labelled labels vals name).length = labels.count name := by
  unfold labelled
  rw [List.length_map]
  induction labels generalizing vals with
  | nil => simp
  | cons l ls ih =>
    cases vals with
    | nil => simp at h
    | cons v vs =>
      simp only [List.length_cons, Nat.add_right_cancel_iff] at h
      rw [List.zip_cons_cons, List.filter_cons, List.count_cons]
      by_cases hl : (l == name) = true
      · simp only [hl, if_true, List.length_cons]
        rw [ih h]
      · simp only [hl]
        rw [if_neg Bool.false_ne_true, if_neg Bool.false_ne_true]
        exact ih h

theorem paramPositions_length {labels : List String} {N_var : Nat} {name : String} : (paramPositions labels N_var name).length = labels.count name := by
  unfold paramPositions
  rw [List.length_map]
  have : ∀ k, (List.filter (fun p => p.1 == name) (labels.zipIdx k)).length = labels.count name := by
    induction labels with
    | nil => intro k; simp
    | cons l ls ih =>
      intro k
      rw [List.zipIdx_cons, List.filter_cons, List.count_cons]
      by_cases hl : (l == name) = true
      · simp only [hl, if_true, List.length_cons]
        rw [ih]
      · simp only [hl]
        rw [if_neg Bool.false_ne_true, if_neg Bool.false_ne_true]
        exact ih _
  exact this 0

/-- Times and track indices can always be read for the sensors of a series. -/
theorem getSensorArray_total {β : Type} {x : Idx} {arr1 arr2 : Option (List β)} {i a b : Nat} {pair : Nat × Nat} {name n1 n2 : String}
    (ha : x.cNm[i]? = some a) (hb : x.cNm[i + 1]? = some b) (hp : x.Im[i]? = some pair) (h1 : x.sensors[pair.1]? = some n1)
    (h2 : x.sensors[pair.2]? = some n2) (hn : name = n1 ∨ name = n2) : ∃ r, x.getSensorArray arr1 arr2 (i + 1) name = .ok r := by
  unfold Idx.getSensorArray
  rw [Nat.add_sub_cancel, pyGet_some ha, pyGet_some hb, pyGet_some hp]
  simp only [bind, Except.bind]
  rw [pyGet_some h1, pyGet_some h2]
  simp only []
  by_cases he : name = n1
  · rw [if_pos he]; exact ⟨_, rfl⟩
  · rw [if_neg he, if_pos (hn.resolve_left he)]; exact ⟨_, rfl⟩

/-- Everything known about a solver object on a ready match-up. -/
structure GN.Setup [Field α] (g : GN α δ) (ms : Evaluable α δ) (labels clabels : List String) (m : Nat) (N : List Nat) (n : Nat) : Prop where
  ready : ms.SolverReady labels clabels m
  facts : RunFacts ms.mu g.hd.mu N n
  hd : g.hd = { ms with mu := g.hd.mu }
  xlen : g.xyza.length = N.sum + n + labels.length
  S_len : g.S.length = labels.length
  S_row : ∀ r ∈ g.S, r.length = labels.length

theorem GN.Solves.setup [Field α] {g : GN α δ} {ms : Evaluable α δ} {labels clabels : List String} {m : Nat} (h : ms.SolverReady labels clabels m)
    (hg : g.Solves ms) : ∃ N n, g.Setup ms labels clabels m N n := by
  obtain ⟨nm, hrun, hhd⟩ := normalise_ok hg.norm
  obtain ⟨N, n, hf⟩ := transformRun_facts h.wf hrun
  have hnm : nm = g.hd.mu := by rw [hhd]
  subst hnm
  have ha : g.hd.a = ms.a := by rw [hhd]
  have hl := h.parameters.2
  refine ⟨N, n, h, hf, hhd, ?_, by rw [hg.rows, ha, hl], fun r hr => by rw [hg.cols r hr, ha, hl]⟩
  rw [hg.xyza, hf.vlen, ha, hl]

section
variable [Field α] {g : GN α δ} {ms : Evaluable α δ} {labels clabels : List String} {m n : Nat} {N : List Nat}

theorem GN.Setup.labels_eq (h : g.Setup ms labels clabels m N n) : g.hd.mu.idx.parameter_sensor = some labels := by
  rw [h.facts.idx]; exact h.ready.parameters.1

theorem GN.Setup.a_len (h : g.Setup ms labels clabels m N n) : g.hd.a.length = labels.length := by
  rw [h.hd]; exact h.ready.parameters.2.symm

theorem GN.Setup.var_eq (h : g.Setup ms labels clabels m N n) : pyLast g.hd.mu.idx.idx = .ok (N.sum + n) := by
  unfold pyLast
  exact pyGet_some h.facts.reads.2.2

theorem GN.Setup.ctx_eq (h : g.Setup ms labels clabels m N n) : g.prodCtx = .ok { N_var := N.sum + n, N_cov := m, n_uS := n } := by
  unfold GN.prodCtx
  rw [h.var_eq, h.labels_eq, h.facts.unc, h.facts.sys]
  have hc : pyLast g.hd.mu.idx.n_cov = .ok m := by
    have := h.ready.covariates
    rw [List.getLast?_eq_getElem?] at this
    have e : g.hd.mu.idx.n_cov = ms.mu.idx.n_cov := by rw [h.facts.idx]
    unfold pyLast
    rw [e]
    exact pyGet_some this
  rw [hc]
  rfl

theorem GN.Setup.cNm_eq (h : g.Setup ms labels clabels m N n) : g.hd.mu.idx.cNm = prefixSums ms.mu.idx.Nm := by
  rw [h.facts.idx]; exact h.ready.wf.idx.series

theorem GN.Setup.mu_eq (h : g.Setup ms labels clabels m N n) : pyLast g.hd.mu.idx.cNm = .ok ms.mu.idx.Nm.sum := by
  unfold pyLast
  rw [h.cNm_eq]
  apply pyGet_some
  rw [prefixSums_length, Nat.add_sub_cancel, prefixSums_getElem?_of_le _ (Nat.le_refl _), List.take_length]

theorem lastN_eq {l : List α} {a b : Nat} (h : l.length = a + b) (labels : List String) (hb : labels.length = b) (name : String) :
    labelled labels (lastN l b) name = labelled labels (l.drop a) name := by
  unfold lastN
  by_cases h0 : b = 0
  · have : labels = [] := List.length_eq_zero_iff.1 (by omega)
    subst this
    simp [labelled]
  · rw [if_neg h0]
    congr 2
    omega

/-- The call of the sensor model at the solver's estimate. -/
theorem ready_calcR (h : g.Setup ms labels clabels m N n) {i s q k : Nat} {name : String} {f : SensorModel α δ}
    (hname : ms.mu.idx.sensors[s]? = some name) (hq : ms.mu.idx.sensor_ms[s]? = some q) (hfm : ms.sensor_model[s]? = some f)
    (hcov : ms.mu.idx.covNumbers s (i + 1) = (List.range q).map (· + 1)) (hk : ms.mu.idx.Nm[i]? = some k)
    (xt al : Option (List α)) (t : Option (List δ)) :
    g.calcR xt al t s (i + 1) = f ((List.range q).map fun c => vector k fun r =>
        ∑ j ∈ Finset.range g.xyza.length, g.hd.mu.unconvM (N.sum + n) n k (blkOf ms.mu.idx s (i + 1) c) r j * ent g.xyza j)
      (labelled labels (g.xyza.drop (N.sum + n)) name) (labelled clabels ms.constant name) xt al t := by
  unfold GN.calcR
  have e1 : g.hd.mu.idx.sensors = ms.mu.idx.sensors := by rw [h.facts.idx]
  have e2 : g.hd.mu.idx.constant_sensor = some clabels := by rw [h.facts.idx]; exact h.ready.constants
  have e3 : g.hd.constant = ms.constant := by rw [h.hd]
  have e4 : g.hd.sensor_model = ms.sensor_model := by rw [h.hd]
  simp only [e1, pyGet_some hname, e2, e3, h.labels_eq, needKey, pickLabelled, bind, Except.bind]
  rw [ready_unconvert h.ready h.facts hq hcov hk (by rw [h.xlen]; omega)]
  simp only [e4, pyGet_some hfm]
  have hl := lastN_eq h.xlen labels rfl name
  unfold labelled at hl
  rw [hl]
  rfl

/-- One sensor of one series meets the shape conditions of the products. -/
theorem ready_side (h : g.Setup ms labels clabels m N n) {i k s : Nat} {pair : Nat × Nat} (hp : ms.mu.idx.Im[i]? = some pair)
    (hk : ms.mu.idx.Nm[i]? = some k) (hs : s = pair.1 ∨ s = pair.2) :
    ∃ JB dR, g.SideOk { N_var := N.sum + n, N_cov := m, n_uS := n } k (i + 1) s JB dR := by
  obtain ⟨hs1, hs2⟩ := h.ready.sides i pair hp
  obtain ⟨n1, _, _, _, hn1, _⟩ := id hs1
  obtain ⟨n2, _, _, _, hn2, _⟩ := id hs2
  have hside : ms.SideReady labels clabels m (i + 1) s := by rcases hs with rfl | rfl <;> assumption
  obtain ⟨name, q, f, B, hname, hq, hfm, hB, hBs, hq1, hcov, hkind⟩ := hside
  have hnn : name = n1 ∨ name = n2 := by
    rcases hs with rfl | rfl
    · rw [hn1] at hname; exact .inl (by simpa using hname.symm)
    · rw [hn2] at hname; exact .inr (by simpa using hname.symm)
  have e1 : g.hd.mu.idx.sensors = ms.mu.idx.sensors := by rw [h.facts.idx]
  have e2 : g.hd.mu.idx.Im = ms.mu.idx.Im := by rw [h.facts.idx]
  have e3 : g.hd.adjustment_model = ms.adjustment_model := by rw [h.hd]
  have hlt : i < ms.mu.idx.Nm.length := (List.getElem?_eq_some_iff.1 hk).1
  have hc1 : g.hd.mu.idx.cNm[i]? = some (ms.mu.idx.Nm.take i).sum := by rw [h.cNm_eq, prefixSums_getElem?_of_le _ (by omega)]
  have hc2 : g.hd.mu.idx.cNm[i + 1]? = some (ms.mu.idx.Nm.take (i + 1)).sum := by rw [h.cNm_eq, prefixSums_getElem?_of_le _ (by omega)]
  have hget : ∀ {β : Type} (arr1 arr2 : Option (List β)), ∃ r, g.hd.mu.idx.getSensorArray arr1 arr2 (i + 1) name = .ok r := fun arr1 arr2 =>
    getSensorArray_total hc1 hc2 (by rw [e2]; exact hp) (by rw [e1]; exact hn1) (by rw [e1]; exact hn2) hnn
  obtain ⟨xt, hxt⟩ := hget g.hd.mu.across_track_index1 g.hd.mu.across_track_index2
  obtain ⟨al, hal⟩ := hget g.hd.mu.along_track_index1 g.hd.mu.along_track_index2
  obtain ⟨t, ht⟩ := hget g.hd.mu.time1 g.hd.mu.time2
  have hR := ready_calcR h hname hq hfm hcov hk xt al t
  have hal' : (labelled labels (g.xyza.drop (N.sum + n)) name).length = labels.count name :=
    labelled_length (by rw [List.length_drop, h.xlen]; omega) name
  rcases hkind with ⟨hcal, rfl, hmem⟩ | ⟨href, htype⟩
  · obtain ⟨R, J, hfx, hRl, hJl, hJc⟩ := hcal ((List.range q).map fun c => vector k fun r => ∑ j ∈ Finset.range g.xyza.length, g.hd.mu.unconvM (N.sum + n) n k (blkOf ms.mu.idx s (i + 1) c) r j * ent g.xyza j) _ xt al t k (by simp) (by simp) hal'
    rw [hfx] at hR
    obtain ⟨r, JB, hBR, _, hJB⟩ := hBs R
    refine ⟨JB, _, name, xt, al, t, R, some J, B, r, by rw [e1]; exact hname, hxt, hal, ht, hR, by rw [e3]; exact hB, hBR, by rw [hJB, hRl],
      labels, blkOf ms.mu.idx s (i + 1), h.labels_eq, hmem, by rw [hJl, paramPositions_length], hJc, ?_, rfl⟩
    intro c hc
    obtain ⟨hp, hb⟩ := blkOf_get hcov hc
    exact ⟨by rw [h.facts.blocks_eq]; exact hp, ready_block h.ready h.facts (block_size h.ready.wf.idx hb (by simpa using hk))⟩
  · have hfx := href ((List.range q).map fun c => vector k fun r =>
        ∑ j ∈ Finset.range g.xyza.length, g.hd.mu.unconvM (N.sum + n) n k (blkOf ms.mu.idx s (i + 1) c) r j * ent g.xyza j)
      (labelled labels (g.xyza.drop (N.sum + n)) name) xt al t (by simp)
    rw [hfx] at hR
    have hl : (((List.range q).map fun c => vector k fun r =>
        ∑ j ∈ Finset.range g.xyza.length, g.hd.mu.unconvM (N.sum + n) n k (blkOf ms.mu.idx s (i + 1) c) r j * ent g.xyza j).headD []).length = k := by
      obtain ⟨q', rfl⟩ : ∃ q', q = q' + 1 := ⟨q - 1, by omega⟩
      rw [List.range_succ_eq_map]
      simp
    obtain ⟨r, JB, hBR, _, hJB⟩ := hBs _
    obtain ⟨_, hb⟩ := blkOf_get hcov hq1
    obtain ⟨b1, b2, _⟩ := blocks_get hb
    have hmem : (s, i + 1) ∈ ms.mu.idx.n_sensor.zip ms.mu.idx.n_mu := by
      apply List.mem_of_getElem? (i := blkOf ms.mu.idx s (i + 1) 0)
      rw [List.getElem?_zip_eq_some]
      exact ⟨b1, b2⟩
    obtain ⟨b, hpb⟩ : ∃ b, pyIndex (ms.mu.idx.n_sensor.zip ms.mu.idx.n_mu) (s, i + 1) = .ok b := ⟨_, pyIndex_of_mem hmem⟩
    have hgb := pyIndex_ok hpb
    rw [List.getElem?_zip_eq_some] at hgb
    obtain ⟨hg1, hg2⟩ := hgb
    simp only at hg1 hg2
    have hlt : b < ms.mu.idx.n_cov.length := by
      rw [h.ready.tables.2]; exact (List.getElem?_eq_some_iff.1 hg2).1
    have hbb : ms.mu.idx.blocks[b]? = some (s, i + 1, ms.mu.idx.n_cov[b]) := by
      unfold Idx.blocks
      simp only [List.getElem?_zip_eq_some]
      exact ⟨hg1, hg2, List.getElem?_eq_getElem hlt⟩
    have hsz := block_size h.ready.wf.idx hbb (by simpa using hk)
    obtain ⟨ib, nb, u, hib, hnb, hu, hle, hkd⟩ := ready_block h.ready h.facts hsz
    have hty := htype b _ u hbb (by rw [← h.facts.unc]; exact hu)
    have e4 : g.hd.mu.idx.n_sensor.zip g.hd.mu.idx.n_mu = ms.mu.idx.n_sensor.zip ms.mu.idx.n_mu := by rw [h.facts.idx]
    have hmatch : ∃ uR, (u.unc = .independent uR ∨ ∃ uS, u.unc = .systematic uR uS) ∧ uR.length = k ∧ nb = k := by
      cases hun : u.unc with
      | independent uR =>
        rw [hun] at hkd
        exact ⟨uR, .inl rfl, hkd.1, hkd.2⟩
      | systematic uR uS =>
        rw [hun] at hkd
        exact ⟨uR, .inr ⟨uS, rfl⟩, hkd.1, hkd.2.2.1⟩
      | structured w_i u_i => rw [hun] at hty; simp [Unc.typeID] at hty
      | structuredSystematic w_i u_i uS => rw [hun] at hty; simp [Unc.typeID] at hty
    obtain ⟨uR, hur, hul, rfl⟩ := hmatch
    exact ⟨JB, _, name, xt, al, t, _, none, B, r, by rw [e1]; exact hname, hxt, hal, ht, hR, by rw [e3]; exact hB, hBR, by rw [hJB, hl],
      ib, uR, ⟨b, u, by rw [e4]; exact hpb, hib, hnb, hu, hur, hul, hle⟩, rfl⟩

theorem exists_list {β : Type} {P : Nat → β → Prop} : ∀ n : Nat, (∀ i, i < n → ∃ y, P i y) → ∃ l : List β, l.length = n ∧ ∀ (i : Nat) y, l[i]? = some y → P i y := by
  intro n
  induction n with
  | zero => intro _; exact ⟨[], rfl, by simp⟩
  | succ n ih =>
    intro h
    obtain ⟨l, hl, hP⟩ := ih fun i hi => h i (by omega)
    obtain ⟨y, hy⟩ := h n (by omega)
    refine ⟨l ++ [y], by simp [hl], ?_⟩
    intro i z hz
    rw [List.getElem?_append] at hz
    split at hz
    · exact hP i z hz
    · have : i = n := by
        have := (List.getElem?_eq_some_iff.1 hz).1
        simp at this; omega
      subst this
      simp [hl] at hz
      subst hz
      exact hy

/-- A solver object on a ready match-up meets the shape conditions. -/
theorem GN.Setup.shaped (h : g.Setup ms labels clabels m N n) :
    ∃ js, g.Shaped { N_var := N.sum + n, N_cov := m, n_uS := n } labels ms.mu.idx.Nm.sum js := by
  have hunck := h.ready.wf.unck
  have hul : ms.mu.unck.length = ms.mu.idx.Nm.length := by rw [← hunck, List.length_map]
  obtain ⟨js, hjl, hj⟩ := exists_list (P := fun i (j : SeriesJ α) => ∀ pair, ms.mu.idx.Im[i]? = some pair →
      j.lo = (ms.mu.idx.Nm.take i).sum ∧ ms.mu.idx.Nm[i]? = some j.k ∧ ms.mu.unck[i]? = some j.uK ∧
      g.SideOk { N_var := N.sum + n, N_cov := m, n_uS := n } j.k (i + 1) pair.1 j.JB1 j.dR1 ∧
      g.SideOk { N_var := N.sum + n, N_cov := m, n_uS := n } j.k (i + 1) pair.2 j.JB2 j.dR2) ms.mu.idx.Im.length (by
    intro i hi
    have hin : i < ms.mu.idx.Nm.length := by rw [← h.ready.pairs]; exact hi
    have hiu : i < ms.mu.unck.length := by omega
    obtain ⟨JB1, dR1, h1⟩ := ready_side h (List.getElem?_eq_getElem hi) (List.getElem?_eq_getElem hin) (.inl rfl)
    obtain ⟨JB2, dR2, h2⟩ := ready_side h (List.getElem?_eq_getElem hi) (List.getElem?_eq_getElem hin) (.inr rfl)
    refine ⟨⟨(ms.mu.idx.Nm.take i).sum, ms.mu.idx.Nm[i], ms.mu.unck[i], JB1, JB2, dR1, dR2⟩, ?_⟩
    intro pair hp
    rw [List.getElem?_eq_getElem hi] at hp; cases hp
    exact ⟨rfl, List.getElem?_eq_getElem hin, List.getElem?_eq_getElem hiu, h1, h2⟩)
  have e2 : g.hd.mu.idx.Im = ms.mu.idx.Im := by rw [h.facts.idx]
  refine ⟨js, h.ctx_eq, h.mu_eq, h.labels_eq, h.a_len, h.S_len, h.S_row, by show n ≤ N.sum + n; omega, by rw [hjl, e2], ?_⟩
  intro i pair j hp hji
  rw [e2] at hp
  obtain ⟨h1, h2, h3, h4, h5⟩ := hj i j hji pair hp
  have hlt : i < ms.mu.idx.Nm.length := (List.getElem?_eq_some_iff.1 h2).1
  have hsum := take_succ_sum ms.mu.idx.Nm h2
  have hle := take_sum_le_take_sum ms.mu.idx.Nm (show i + 1 ≤ ms.mu.idx.Nm.length by omega)
  rw [List.take_length] at hle
  refine ⟨by rw [h.cNm_eq, prefixSums_getElem?_of_le _ (by omega), h1], by rw [h.cNm_eq, prefixSums_getElem?_of_le _ (by omega), h1, hsum],
    by rw [h1]; omega, by rw [h.facts.unck]; exact h3, ?_, h4, h5⟩
  have : (ms.mu.unck.map List.length)[i]? = some j.k := by rw [hunck]; exact h2
  rw [List.getElem?_map, h3] at this
  simpa using this

end
end Verif
