import Verif.Lemmas.Objective
import Verif.Props.GNKrylov
/-
Directions of the solver's vector which change no value of the match-up: the products with the Jacobian do not see them.
-/
set_option autoImplicit false
namespace Verif
open Finset (sum_congr)
variable {α δ : Type} [Field α] {g : GN α δ} {ms : Evaluable α δ} {labels clabels : List String} {m n : Nat} {N : List Nat}

/-- A direction which changes no value. -/
def GN.Blind (g : GN α δ) (ms : Evaluable α δ) (T n : Nat) (κ : Nat → α) : Prop :=
  (∀ (b k r : Nat), ms.mu.idx.N_var[b]? = some k → r < k → ∑ c ∈ Finset.range T, g.hd.mu.unconvM T n k b r c * κ c = 0) ∧ ∀ c, T ≤ c → κ c = 0

theorem sum_tail_zero {T L : Nat} {f : Nat → α} (h : ∀ c, T ≤ c → f c = 0) : ∑ c ∈ Finset.range (T + L), f c = ∑ c ∈ Finset.range T, f c := by
  rw [Finset.sum_range_add]
  rw [Finset.sum_eq_zero (s := Finset.range L) fun i _ => h _ (by omega), add_zero]

theorem paramPositions_getD_ge {labels : List String} {T : Nat} {name : String} {p : Nat} (hp : p < (paramPositions labels T name).length) :
    T ≤ (paramPositions labels T name).getD p 0 := by
  have hm : (paramPositions labels T name).getD p 0 ∈ paramPositions labels T name := by
    simp [List.getD, List.getElem?_eq_getElem hp]
  generalize (paramPositions labels T name).getD p 0 = q at hm
  unfold paramPositions at hm
  obtain ⟨⟨l, q⟩, _, rfl⟩ := List.mem_map.1 hm
  show T ≤ T + q
  omega

theorem pyIndex_first {β : Type} [DecidableEq β] {l : List β} {x : β} {i j : Nat} (h : pyIndex l x = .ok i) (hj : j < i) : l[j]? ≠ some x := by
  unfold pyIndex at h
  split at h
  · cases h
    intro hc
    obtain ⟨h1, h2⟩ := List.getElem?_eq_some_iff.1 hc
    have := List.not_of_lt_findIdx (xs := l) (p := (· == x)) (i := j) hj
    simp [h2] at this
  · cases h

/-- The first block of a sensor in a series is its first column. -/
theorem first_column {x : Idx} {s n q b c : Nat} (hcov : x.covNumbers s n = (List.range q).map (· + 1)) (hq : 1 ≤ q)
    (hb : pyIndex (x.n_sensor.zip x.n_mu) (s, n) = .ok b) (hbb : x.blocks[b]? = some (s, n, c)) : c = 1 := by
  have hh : (x.covNumbers s n).head? = some c := by
    unfold Idx.covNumbers
    rw [List.head?_map, List.head?_filter]
    have : x.blocks.find? (fun t => t.1 == s && t.2.1 == n) = some (s, n, c) := by
      obtain ⟨hlt, he⟩ := List.getElem?_eq_some_iff.1 hbb
      rw [List.find?_eq_some_iff_getElem]
      refine ⟨by simp, b, hlt, he, fun j hj => ?_⟩
      have hjb : x.blocks[j]? = some x.blocks[j] := List.getElem?_eq_getElem (by omega)
      obtain ⟨⟨t1, t2, t3⟩, hT⟩ : ∃ t, x.blocks[j] = t := ⟨_, rfl⟩
      rw [hT] at hjb ⊢
      obtain ⟨e1, e2, _⟩ := blocks_get hjb
      have hz : (x.n_sensor.zip x.n_mu)[j]? = some (t1, t2) := by rw [List.getElem?_zip_eq_some]; exact ⟨e1, e2⟩
      by_contra hcon
      have hst : t1 = s ∧ t2 = n := by simpa using hcon
      obtain ⟨rfl, rfl⟩ := hst
      exact absurd hz (pyIndex_first hb hj)
    rw [this]; rfl
  rw [hcov] at hh
  obtain ⟨q', rfl⟩ : ∃ q', q = q' + 1 := ⟨q - 1, by omega⟩
  rw [List.range_succ_eq_map] at hh
  simpa using hh.symm

theorem side_blind (h : g.Setup ms labels clabels m N n) (hp : ms.PlainReferences) {κ : Nat → α} (hκ : g.Blind ms (N.sum + n) n κ) {i k s : Nat} {pair : Nat × Nat}
    (hi : ms.mu.idx.Im[i]? = some pair) (hk : ms.mu.idx.Nm[i]? = some k) (hs : s = pair.1 ∨ s = pair.2) {JB : List α} {dR : Nat → Nat → α}
    (hok : g.SideOk { N_var := N.sum + n, N_cov := m, n_uS := n } k (i + 1) s JB dR) {r : Nat} (hr : r < k) :
    ∑ c ∈ Finset.range (N.sum + n + labels.length), dR r c * κ c = 0 := by
  obtain ⟨hs1, hs2⟩ := h.ready.sides i pair hi
  have hside : ms.SideReady labels clabels m (i + 1) s := by rcases hs with rfl | rfl <;> assumption
  obtain ⟨name, q, f, B, hname, hq, hfm, _, _, hq1, hcov, hkind⟩ := hside
  obtain ⟨name', xt, al, t, R, JR, B', adj, hname', _, _, _, hR, _, _, _, hJR⟩ := hok
  rw [sum_tail_zero fun c hc => by rw [hκ.2 c hc, mul_zero]]
  cases JR with
  | some JR =>
    obtain ⟨labels', blk, hl', hmem, _, _, hblk, rfl⟩ := hJR
    rw [sum_congr rfl fun c hc => ?_]
    · rw [sum_congr rfl fun c _ => (by rw [list_sum_range, Finset.sum_mul] : (((List.range m).map fun v => ent (JR.getD v []) r *
        g.hd.mu.unconvM (N.sum + n) n k (blk v) r c).sum * κ c = _))]
      rw [Finset.sum_comm]
      refine Finset.sum_eq_zero fun v hv => ?_
      have hv := Finset.mem_range.1 hv
      rw [sum_congr rfl fun c _ => mul_assoc _ _ _, ← Finset.mul_sum]
      obtain ⟨hb, _⟩ := hblk v hv
      have hb' := pyIndex_ok hb
      rw [h.facts.blocks_eq] at hb'
      rw [hκ.1 _ k r (block_size h.ready.wf.idx hb' (by simpa using hk)) hr, mul_zero]
    · have hc := Finset.mem_range.1 hc
      have : gatherM (paramPositions labels' (N.sum + n) name').length (fun p => (paramPositions labels' (N.sum + n) name').getD p 0)
            (fun i p => ent (JR.getD (m + p) []) i) r c = 0 := by
        unfold gatherM
        refine Finset.sum_eq_zero fun p hp' => ?_
        have := paramPositions_getD_ge (Finset.mem_range.1 hp')
        exact if_neg (show ¬ (paramPositions labels' (N.sum + n) name').getD p 0 = c by omega)
      show (_ + gatherM (paramPositions labels' (N.sum + n) name').length _ _ r c) * κ c = _
      rw [this, add_zero]
  | none =>
    obtain ⟨ib, uR, ⟨b, u, hb, hib, hnb, hu, hun, hul, hle⟩, rfl⟩ := hJR
    have e4 : g.hd.mu.idx.n_sensor.zip g.hd.mu.idx.n_mu = ms.mu.idx.n_sensor.zip ms.mu.idx.n_mu := by rw [h.facts.idx]
    rw [e4] at hb
    have hgb := pyIndex_ok hb
    rw [List.getElem?_zip_eq_some] at hgb
    obtain ⟨hg1, hg2⟩ := hgb
    simp only at hg1 hg2
    have hlt : b < ms.mu.idx.n_cov.length := by
      rw [h.ready.tables.2]; exact (List.getElem?_eq_some_iff.1 hg2).1
    have hbb : ms.mu.idx.blocks[b]? = some (s, i + 1, ms.mu.idx.n_cov[b]) := by
      unfold Idx.blocks
      simp only [List.getElem?_zip_eq_some]
      exact ⟨hg1, hg2, List.getElem?_eq_getElem hlt⟩
    have hsz := block_size h.ready.wf.idx hbb (by simpa using hk)
    have hfirst : ms.mu.idx.n_cov[b] = 1 := first_column hcov hq1 hb hbb
    have hty : u.unc.typeID = 1 := by
      rcases hkind with ⟨hcal, _, _⟩ | ⟨href, _⟩
      · have h1 := ready_calcR h hname hq hfm hcov hk xt al t
        rw [hR] at h1
        obtain ⟨R', J', h2, _⟩ := hcal ((List.range q).map fun c => vector k fun r => ∑ j ∈ Finset.range g.xyza.length,
          g.hd.mu.unconvM (N.sum + n) n k (blkOf ms.mu.idx s (i + 1) c) r j * ent g.xyza j) (labelled labels (g.xyza.drop (N.sum + n)) name) xt al t k (by simp)
          (by simp) (labelled_length (by rw [List.length_drop, h.xlen]; omega) name)
        rw [h2] at h1
        cases h1
      · exact hp i s q pair f name clabels hi hs hfm hq hname h.ready.constants href b u (by rw [hbb, hfirst]) (by rw [← h.facts.unc]; exact hu)
    have hind : u.unc = .independent uR := by
      rcases hun with hun | ⟨uS, hun⟩
      · exact hun
      · rw [hun] at hty; simp [Unc.typeID] at hty
    have := hκ.1 b k r hsz hr
    have hM : ∀ c, g.hd.mu.unconvM (N.sum + n) n k b r c = gatherM k (fun j => ib + j) (diagM (ent uR)) r c := by
      intro c
      unfold MatchUp.unconvM
      simp only [hu, hind]
      simp [List.getD, hib]
    rw [← this]
    exact sum_congr rfl fun c _ => by rw [hM]

/-- The products do not see a blind direction, except as itself. -/
theorem prodM_blind (h : g.Setup ms labels clabels m N n) (hp : ms.PlainReferences) {κ : Nat → α} (hκ : g.Blind ms (N.sum + n) n κ) {js : List (SeriesJ α)}
    (hj : g.Shaped { N_var := N.sum + n, N_cov := m, n_uS := n } labels ms.mu.idx.Nm.sum js) (r : Nat) :
    ∑ d ∈ Finset.range (N.sum + n + labels.length), g.prodM (N.sum + n) labels.length js r d * κ d = if r < N.sum + n then κ r else 0 := by
  have hpre : ∀ c, ∑ d ∈ Finset.range (N.sum + n + labels.length), g.preM (N.sum + n) c d * κ d = κ c := by
    intro c
    rw [sum_tail_zero fun d hd => by rw [hκ.2 d hd, mul_zero]]
    unfold GN.preM
    by_cases hc : c < N.sum + n
    · simp only [if_pos hc, ite_mul, one_mul, zero_mul]
      rw [Finset.sum_ite_eq, if_pos (Finset.mem_range.2 hc)]
    · rw [hκ.2 c (by omega)]
      refine Finset.sum_eq_zero fun d hd => ?_
      have := Finset.mem_range.1 hd
      rw [if_neg hc, if_neg (by omega), zero_mul]
  have h1 : ∑ d ∈ Finset.range (N.sum + n + labels.length), g.prodM (N.sum + n) labels.length js r d * κ d =
      ∑ c ∈ Finset.range (N.sum + n + labels.length), jacM (N.sum + n) js r c * κ c := by
    unfold GN.prodM
    simp only [Finset.sum_mul]
    rw [Finset.sum_comm]
    refine sum_congr rfl fun c _ => ?_
    rw [sum_congr rfl fun d _ => mul_assoc _ _ _, ← Finset.mul_sum, hpre]
  rw [h1]
  unfold jacM
  simp only [add_mul]
  rw [Finset.sum_add_distrib]
  have h2 : ∑ c ∈ Finset.range (N.sum + n + labels.length), (js.map fun j => j.mat (N.sum + n) r c).sum * κ c = 0 := by
    have : ∀ l : List (SeriesJ α), (∀ j ∈ l, ∑ c ∈ Finset.range (N.sum + n + labels.length), j.mat (N.sum + n) r c * κ c = 0) →
        ∑ c ∈ Finset.range (N.sum + n + labels.length), (l.map fun j => j.mat (N.sum + n) r c).sum * κ c = 0 := by
      intro l
      induction l with
      | nil => intro _; simp
      | cons j l ih =>
        intro hl
        simp only [List.map_cons, List.sum_cons, add_mul]
        rw [Finset.sum_add_distrib, hl j (by simp), ih fun j' hj' => hl j' (by simp [hj']), add_zero]
    apply this
    intro j hjm
    obtain ⟨i, hi⟩ := List.mem_iff_getElem?.1 hjm
    have hil : i < ms.mu.idx.Im.length := by
      have := (List.getElem?_eq_some_iff.1 hi).1
      rw [hj.len] at this
      rw [h.facts.idx] at this
      exact this
    obtain ⟨pair, hpr⟩ : ∃ pair, ms.mu.idx.Im[i]? = some pair := ⟨_, List.getElem?_eq_getElem hil⟩
    obtain ⟨c1, c2, _, _, _, o1, o2⟩ := hj.series i pair j (by rw [h.facts.idx]; exact hpr) hi
    have hin : i < ms.mu.idx.Nm.length := by rw [← h.ready.pairs]; exact hil
    have hk : ms.mu.idx.Nm[i]? = some j.k := by
      rw [h.cNm_eq, prefixSums_getElem?_of_le _ (by omega)] at c1 c2
      have h3 := take_succ_sum ms.mu.idx.Nm (List.getElem?_eq_getElem hin)
      rw [List.getElem?_eq_getElem hin]
      have c1' := Option.some.inj c1
      have c2' := Option.some.inj c2
      congr 1
      omega
    unfold SeriesJ.mat
    simp only [add_mul]
    rw [Finset.sum_add_distrib]
    unfold covM
    by_cases hr : N.sum + n + j.lo ≤ r ∧ r < N.sum + n + j.lo + j.k
    · simp only [if_pos hr]
      rw [sum_congr rfl fun c _ => mul_assoc _ _ _, ← Finset.mul_sum, side_blind h hp hκ hpr hk (.inl rfl) o1 (by omega), mul_zero, zero_add]
      rw [sum_congr rfl fun c _ => mul_assoc _ _ _, ← Finset.mul_sum, side_blind h hp hκ hpr hk (.inr rfl) o2 (by omega), mul_zero]
    · simp only [if_neg hr, zero_mul]
      simp
  rw [h2, add_zero]
  by_cases hr : r < N.sum + n
  · rw [if_pos hr, Finset.sum_eq_single r]
    · rw [if_pos ⟨hr, rfl⟩, one_mul]
    · intro c _ hc
      rw [if_neg (fun e => hc e.2.symm), zero_mul]
    · intro hc
      exact absurd (Finset.mem_range.2 (by omega)) hc
  · rw [if_neg hr]
    refine Finset.sum_eq_zero fun c _ => ?_
    rw [if_neg (fun e => hr e.1), zero_mul]

/-- The first rows of the products are the vector itself. -/
theorem prodM_var {T L r : Nat} {js : List (SeriesJ α)} (hr : r < T) (v : Nat → α) :
    ∑ d ∈ Finset.range (T + L), g.prodM T L js r d * v d = v r := by
  have hjac : ∀ c, jacM T js r c = if r = c then 1 else 0 := by
    intro c
    unfold jacM
    have : (js.map fun j => j.mat T r c).sum = 0 := by
      apply List.sum_eq_zero
      intro x hx
      obtain ⟨j, _, rfl⟩ := List.mem_map.1 hx
      unfold SeriesJ.mat covM
      rw [if_neg (by omega), if_neg (by omega), add_zero]
    rw [this, add_zero]
    simp [hr]
  unfold GN.prodM
  have hrow : ∀ d, ∑ c ∈ Finset.range (T + L), jacM T js r c * g.preM T c d = if r = d then 1 else 0 := by
    intro d
    simp only [hjac, ite_mul, one_mul, zero_mul]
    rw [Finset.sum_ite_eq, if_pos (Finset.mem_range.2 (by omega))]
    unfold GN.preM
    rw [if_pos hr]
  simp only [hrow, ite_mul, one_mul, zero_mul]
  rw [Finset.sum_ite_eq, if_pos (Finset.mem_range.2 (by omega))]

section
open Matrix

theorem sum_fin_range {M : Nat} (f : Nat → α) : ∑ i : Fin M, f i = ∑ i ∈ Finset.range M, f i := (Finset.sum_range f).symm

/-- In matrix form. -/
theorem jacobian_blind (h : g.Setup ms labels clabels m N n) (hp : ms.PlainReferences) {κ : Nat → α} (hκ : g.Blind ms (N.sum + n) n κ) {M L : Nat}
    {J : Matrix (Fin M) (Fin L) α} (hM : M = N.sum + n + ms.mu.idx.Nm.sum) (hL : L = N.sum + n + labels.length) (hJ : g.IsJacobian J) :
    (∀ r : Fin M, (J *ᵥ fun i => κ i) r = if (r : Nat) < N.sum + n then κ r else 0) ∧
      ∀ (v : Fin L → α) (r : Fin M) (hr : (r : Nat) < N.sum + n), (J *ᵥ v) r = v ⟨r, by omega⟩ := by
  subst hM hL
  obtain ⟨js, hj⟩ := h.shaped
  have key : ∀ (v : Fin (N.sum + n + labels.length) → α) (r : Fin (N.sum + n + ms.mu.idx.Nm.sum)),
      (J *ᵥ v) r = ∑ d ∈ Finset.range (N.sum + n + labels.length), g.prodM (N.sum + n) labels.length js r d * ent (List.ofFn v) d := by
    intro v r
    have h1 := hJ.1 v
    rw [prod_fwd_mat hj (by simp)] at h1
    have h2 := Except.ok.inj h1
    have h3 := ent_ofFn (J *ᵥ v) r
    rw [← h2] at h3
    exact h3.symm.trans (ent_vector r.2)
  refine ⟨fun r => ?_, fun v r hr => ?_⟩
  · rw [key, ← prodM_blind h hp hκ hj r]
    refine sum_congr rfl fun d hd => ?_
    have := ent_ofFn (fun i : Fin (N.sum + n + labels.length) => κ i) ⟨d, Finset.mem_range.1 hd⟩
    simp only at this
    rw [this]
  · rw [key, prodM_var hr]
    exact ent_ofFn v ⟨r, by omega⟩

/-- Vectors orthogonal to a blind direction. -/
def Orth {L : Nat} (κ : Nat → α) (z : Fin L → α) : Prop := ∑ i : Fin L, z i * κ i = 0

theorem krylov_orth (h : g.Setup ms labels clabels m N n) (hp : ms.PlainReferences) {κ : Nat → α} (hκ : g.Blind ms (N.sum + n) n κ) {M L : Nat}
    {J : Matrix (Fin M) (Fin L) α} (hM : M = N.sum + n + ms.mu.idx.Nm.sum) (hL : L = N.sum + n + labels.length) (hJ : g.IsJacobian J) {f : Fin M → α}
    (hf : ∑ r : Fin M, (if (r : Nat) < N.sum + n then f r * κ r else 0) = 0) {k : Nat} {z : Fin L → α} (hz : z ∈ krylov (Jᵀ * J) (Jᵀ *ᵥ f) k) : Orth κ z := by
  obtain ⟨hb, hv⟩ := jacobian_blind h hp hκ hM hL hJ
  have hT : ∀ u : Fin M → α, ∑ i : Fin L, (Jᵀ *ᵥ u) i * κ i = ∑ r : Fin M, if (r : Nat) < N.sum + n then u r * κ r else 0 := by
    intro u
    have : ∑ i : Fin L, (Jᵀ *ᵥ u) i * κ i = (Jᵀ *ᵥ u) ⬝ᵥ fun i : Fin L => κ i := rfl
    rw [this, Matrix.mulVec_transpose, ← Matrix.dotProduct_mulVec]
    show ∑ r : Fin M, u r * (J *ᵥ fun i : Fin L => κ i) r = _
    refine sum_congr rfl fun r _ => ?_
    rw [hb r]
    split <;> simp
  have hJJ : ∀ w : Fin L → α, Orth κ w → Orth κ ((Jᵀ * J) *ᵥ w) := by
    intro w hw
    unfold Orth at hw ⊢
    rw [← Matrix.mulVec_mulVec, hT]
    have e : ∀ r : Fin M, (if (r : Nat) < N.sum + n then (J *ᵥ w) r * κ r else 0) = if (r : Nat) < N.sum + n then ent (List.ofFn w) r * κ r else 0 := by
      intro r
      by_cases hr : (r : Nat) < N.sum + n
      · rw [if_pos hr, if_pos hr, hv w r hr]
        congr 1
        exact (ent_ofFn w ⟨r, by omega⟩).symm
      · rw [if_neg hr, if_neg hr]
    rw [sum_congr rfl fun r _ => e r, sum_fin_range (fun r => if r < N.sum + n then ent (List.ofFn w) r * κ r else 0), hM,
      sum_tail_zero fun c hc => if_neg (by omega)]
    have hLs : ∀ q : Nat → α, (∀ c, N.sum + n ≤ c → q c = 0) → ∑ c ∈ Finset.range L, q c = ∑ c ∈ Finset.range (N.sum + n), q c := fun q hq => by
      rw [hL, sum_tail_zero hq]
    rw [sum_congr rfl fun i _ => (by rw [ent_ofFn] : w i * κ i = ent (List.ofFn w) i * κ i), sum_fin_range (fun i => ent (List.ofFn w) i * κ i),
      hLs _ fun c hc => by rw [hκ.2 c hc, mul_zero]] at hw
    rw [← hw]
    exact sum_congr rfl fun c hc => if_pos (Finset.mem_range.1 hc)
  have h0 : Orth κ (Jᵀ *ᵥ f) := by unfold Orth; rw [hT]; exact hf
  unfold krylov at hz
  induction hz using Submodule.span_induction with
  | mem v hv =>
    obtain ⟨j, hjk, rfl⟩ := hv
    clear hjk
    induction j with
    | zero => rw [pow_zero, Matrix.one_mulVec]; exact h0
    | succ j ih => rw [pow_succ', ← Matrix.mulVec_mulVec]; exact hJJ _ ih
  | zero => simp [Orth]
  | add u v _ _ h1 h2 =>
    unfold Orth at *
    simp only [Pi.add_apply, add_mul]
    rw [Finset.sum_add_distrib, h1, h2, add_zero]
  | smul c v _ h1 =>
    unfold Orth at *
    simp only [Pi.smul_apply, smul_eq_mul, mul_assoc]
    rw [← Finset.mul_sum, h1, mul_zero]
end
end Verif
