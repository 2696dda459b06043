import Verif.Lemmas.GNCov
/-
One sensor of one series in `calc_prod_JPx`, then the whole product.
-/
set_option autoImplicit false
namespace Verif
open Finset (sum_congr)
variable {α δ : Type}

theorem mapM_npZip [Field α] {f : α → α → α} {v : List α} {k : Nat} (hv : v.length = k) : ∀ {cols : List (List α)}, (∀ c ∈ cols, c.length = k) →
    cols.mapM (fun c => npZip f v c) = .ok (cols.map fun c => vector k fun i => f (ent v i) (ent c i)) := by
  intro cols
  induction cols with
  | nil => intro _; rfl
  | cons c cols ih =>
    intro h
    rw [List.mapM_cons, npZip_ent hv (h c (by simp)), ih (fun c hc => h c (by simp [hc]))]
    rfl

theorem paramCols_eq [Field α] {v : List α} {JR : List (List α)} {N_cov P k : Nat} (hv : v.length = k) (hl : JR.length = N_cov + P)
    (hk : ∀ c ∈ JR, c.length = k) :
    paramCols v JR N_cov P = .ok (vector P fun p => vector k fun i => ent v i * ent (JR.getD (N_cov + p) []) i) := by
  have hq : (slice JR N_cov (N_cov + P)).length = P := by simp [slice, hl]
  unfold paramCols
  simp only [hq, if_true, bind, Except.bind]
  rw [mapM_npZip hv (fun c hc => hk c (by simp only [slice] at hc; exact List.mem_of_mem_drop (List.mem_of_mem_take hc)))]
  congr 1
  apply List.ext_getElem
  · simp [hq]
  · intro i h1 h2
    have hi : i < P := by simpa using h2
    simp [vector, slice, List.getD, hl, hi]

theorem mapM_pyGet_ent [Zero α] {x : List α} : ∀ {pos : List Nat}, (∀ i ∈ pos, i < x.length) → pos.mapM (pyGet x) = .ok (pos.map (ent x)) := by
  intro pos
  induction pos with
  | nil => intro _; rfl
  | cons p pos ih =>
    intro h
    rw [List.mapM_cons, pyGet_ent (h p (by simp)), ih (fun c hc => h c (by simp [hc]))]
    rfl

theorem mapM_npDot [Field α] {y : List α} {k P : Nat} {f : Nat → Nat → α} (hy : y.length = k) :
    (vector P fun p => vector k (f p)).mapM (fun c => npDot c y) = .ok (vector P fun p => ∑ i ∈ Finset.range k, f p i * ent y i) := by
  have key : ∀ l : List Nat, (l.map fun p => vector k (f p)).mapM (fun c => npDot c y) = .ok (l.map fun p => ∑ i ∈ Finset.range k, f p i * ent y i) := by
    intro l
    induction l with
    | nil => rfl
    | cons p l ih =>
      rw [List.map_cons, List.mapM_cons, npDot_vector (vector_length _ _) hy, ih]
      simp only [bind, Except.bind, pure, Except.pure, List.map_cons]
      congr 2
      refine sum_congr rfl fun i hi => ?_
      rw [ent_vector (Finset.mem_range.1 hi)]
  exact key (List.range P)

theorem colsDot_eq [Field α] {P k : Nat} {f : Nat → Nat → α} {xs : List α} (hP : P ≠ 0) (hx : xs.length = P) :
    colsDot (vector P fun p => vector k (f p)) xs = vector k fun i => ∑ p ∈ Finset.range P, f p i * ent xs p := by
  have h0 : ((vector P fun p => vector k (f p)).headD []).length = k := by
    cases P with
    | zero => exact absurd rfl hP
    | succ P => simp [vector, List.range_succ_eq_map]
  unfold colsDot
  rw [h0]
  apply vector_congr
  intro i hi
  rw [← list_sum_range]
  congr 1
  apply List.ext_getElem
  · simp [vector, hx]
  · intro p h1 h2
    have hp : p < P := by simpa using h2
    simp [vector, List.getD, hx, hp, hi, ent]

/-- The parameter term. -/
theorem upd_param [Field α] {g : GN α δ} {ctx : ProdCtx} {n m a k : Nat} {s : α} {JB uK : List α} {JR : List (List α)} {labels : List String}
    {name : String} (hl : g.hd.mu.idx.parameter_sensor = some labels) (hmem : name ∈ labels) (hn : n = ctx.N_var + labels.length) (hm : a + k ≤ m)
    (hB : JB.length = k) (hK : uK.length = k) (hJ : JR.length = ctx.N_cov + (paramPositions labels ctx.N_var name).length)
    (hk : ∀ c ∈ JR, c.length = k) :
    Upd n m (fun x F => g.paramTerm false ctx x s JB uK (a, a + k) name JR F) (fun y B => g.paramTerm true ctx y s JB uK (a, a + k) name JR B)
      (covM a k (fun i => s * ent JB i / ent uK i) (gatherM (paramPositions labels ctx.N_var name).length
        (fun p => (paramPositions labels ctx.N_var name).getD p 0) fun i p => ent (JR.getD (ctx.N_cov + p) []) i)) := by
  have hlt : ∀ i ∈ paramPositions labels ctx.N_var name, i < n := by
    intro i hi
    simp only [paramPositions, List.mem_map, List.mem_filter] at hi
    obtain ⟨⟨l, q⟩, ⟨hq, _⟩, rfl⟩ := hi
    have := List.mem_zipIdx hq
    simp only at this ⊢
    omega
  have hne : paramPositions labels ctx.N_var name ≠ [] := by
    obtain ⟨i, hi, rfl⟩ := List.getElem_of_mem hmem
    intro h
    have : ctx.N_var + i ∈ paramPositions labels ctx.N_var labels[i] := by
      simp only [paramPositions, List.mem_map, List.mem_filter]
      exact ⟨(labels[i], i), ⟨by rw [List.mem_zipIdx_iff_getElem?]; simp [hi], by simp⟩, rfl⟩
    rw [h] at this
    simp at this
  generalize hpos : paramPositions labels ctx.N_var name = pos at *
  refine Upd.congrM (M := blockM a k pos.length (fun p => pos.getD p 0) fun i p => s * ent JB i / ent uK i * ent (JR.getD (ctx.N_cov + p) []) i) ?_
    fun r c _ _ => blockM_eq_covM fun i j _ _ => rfl
  refine upd_block hm (fun j hj => hlt _ (by simp [List.getD, hj])) (fun x F hx hF => ?_) (fun y B hy hB' => ?_)
  · unfold GN.paramTerm
    simp only [hl, needKey, hpos, bind, Except.bind, if_neg hne, Bool.false_eq_true, if_false]
    rw [npZip_ent hB hK]
    simp only []
    rw [paramCols_eq (vector_length _ _) hJ hk]
    simp only []
    rw [mapM_pyGet_ent (by simpa [hx] using hlt)]
    simp only []
    rw [colsDot_eq (by simpa using hne) (by simp), map_vector]
    congr 1
    apply vector_congr
    intro i hi
    rw [Finset.mul_sum]
    refine sum_congr rfl fun p hp => ?_
    have hp' := Finset.mem_range.1 hp
    have : ent (pos.map (ent x)) p = ent x (pos.getD p 0) := by simp [ent, List.getD, hp']
    rw [ent_vector hi, this]
    ring
  · unfold GN.paramTerm
    simp only [hl, needKey, hpos, bind, Except.bind, if_neg hne, if_true]
    rw [paramCols_eq hB hJ hk]
    simp only []
    rw [npZip_ent (n := k) (by simp [slice]; omega) hK]
    simp only []
    rw [mapM_npDot (vector_length _ _)]
    simp only []
    rw [map_vector, addAtAll_vector (by simp) (by simpa [hB'] using hlt), hB']
    congr 1
    apply vector_congr
    intro c _
    congr 1
    unfold scatter
    refine sum_congr rfl fun p hp => ?_
    have hp' := Finset.mem_range.1 hp
    split
    · rw [ent_vector hp', Finset.mul_sum]
      refine sum_congr rfl fun i hi => ?_
      have hi' := Finset.mem_range.1 hi
      rw [ent_vector hi', slice_eq_vector (by omega), ent_vector (by omega)]
      ring
    · rfl

/-- The reference sensor's block: position, uncertainty. -/
def GN.RefBlock (g : GN α δ) (N_var k n_mu n_sensor ib : Nat) (uR : List α) : Prop :=
  ∃ b u, pyIndex (g.hd.mu.idx.n_sensor.zip g.hd.mu.idx.n_mu) (n_sensor, n_mu) = .ok b ∧ g.hd.mu.idx.idx[b]? = some ib ∧ g.hd.mu.idx.N_var[b]? = some k ∧
    g.hd.mu.unc[b]? = some u ∧ (u.unc = .independent uR ∨ ∃ uS, u.unc = .systematic uR uS) ∧ uR.length = k ∧ ib + k ≤ N_var

theorem upd_ref [Field α] {g : GN α δ} {n m a k n_sensor n_mu ib N_var : Nat} {s : α} {JB uK uR : List α}
    (h : g.RefBlock N_var k n_mu n_sensor ib uR) (hn : N_var ≤ n) (hm : a + k ≤ m) (hB : JB.length = k) (hK : uK.length = k) :
    Upd n m (fun x F => g.refTerm false x s JB uK (a, a + k) n_sensor n_mu F) (fun y B => g.refTerm true y s JB uK (a, a + k) n_sensor n_mu B)
      (covM a k (fun i => s * ent JB i / ent uK i) (gatherM k (fun j => ib + j) (diagM (ent uR)))) := by
  obtain ⟨b, u, hb, hib, hnb, hu, hk, hl, hle⟩ := h
  unfold GN.refTerm
  simp only [hb, pyGet_some hib, pyGet_some hnb, pyGet_some hu, bind, Except.bind, Bool.false_eq_true, if_true, if_false]
  rcases hk with hk | ⟨_, hk⟩ <;>
  · simp only [hk]
    refine (upd_rand hm (by omega) (by simpa using hB) hl hK).congrM fun r c _ _ => ?_
    refine blockM_eq_covM fun i j hi hj => ?_
    simp only [diagM, ent_map_mul]
    split
    · ring
    · ring

/-- The shape conditions on one sensor of one series under which the product is defined; `dR i c` is the derivative of its measurand for
match-up `i` with respect to entry `c` of the solver's vector. -/
def GN.SideOk [Field α] (g : GN α δ) (ctx : ProdCtx) (k n_mu n_sensor : Nat) (JB : List α) (dR : Nat → Nat → α) : Prop :=
  ∃ name xt al t R JR B adj, g.hd.mu.idx.sensors[n_sensor]? = some name ∧ g.hd.mu.getSensorAcrossTrackIndex n_mu name = .ok xt ∧
    g.hd.mu.getSensorAlongTrackIndex n_mu name = .ok al ∧ g.hd.mu.getSensorTime n_mu name = .ok t ∧ g.calcR xt al t n_sensor n_mu = .ok (R, JR) ∧
    g.hd.adjustment_model[n_sensor]? = some B ∧ B R = .ok (adj, JB) ∧ JB.length = k ∧
    match JR with
    | none => ∃ ib uR, g.RefBlock ctx.N_var k n_mu n_sensor ib uR ∧ dR = gatherM k (fun j => ib + j) (diagM (ent uR))
    | some JR => ∃ labels, ∃ blk : Nat → Nat, g.hd.mu.idx.parameter_sensor = some labels ∧ name ∈ labels ∧
        JR.length = ctx.N_cov + (paramPositions labels ctx.N_var name).length ∧ (∀ c ∈ JR, c.length = k) ∧
        (∀ c, c < ctx.N_cov → pyIndex g.hd.mu.idx.blocks (n_sensor, n_mu, c + 1) = .ok (blk c) ∧ g.hd.mu.BlockOk ctx.N_var ctx.n_uS k (blk c)) ∧
        dR = fun i c => ((List.range ctx.N_cov).map fun v => ent (JR.getD v []) i * g.hd.mu.unconvM ctx.N_var ctx.n_uS k (blk v) i c).sum +
          gatherM (paramPositions labels ctx.N_var name).length (fun p => (paramPositions labels ctx.N_var name).getD p 0)
            (fun i p => ent (JR.getD (ctx.N_cov + p) []) i) i c

theorem covM_sum [Field α] {a k : Nat} {e : Nat → α} {f : Nat → Nat → α} {U : Nat → Nat → Nat → α} {r c : Nat} (l : List Nat) :
    (l.map fun v => covM a k (fun i => e i * f v i) (U v) r c).sum = covM a k e (fun i c => (l.map fun v => f v i * U v i c).sum) r c := by
  induction l with
  | nil => simp [covM]
  | cons v l ih =>
    rw [List.map_cons, List.sum_cons, ih]
    unfold covM
    split
    · simp only [List.map_cons, List.sum_cons]; ring
    · ring

theorem upd_side [Field α] {g : GN α δ} {ctx : ProdCtx} {n m a k n_mu n_sensor : Nat} {s : α} {JB uK : List α} {dR : Nat → Nat → α} {labels : List String}
    (h : g.SideOk ctx k n_mu n_sensor JB dR) (hl : g.hd.mu.idx.parameter_sensor = some labels) (hn : n = ctx.N_var + labels.length)
    (hm : a + k ≤ m) (hK : uK.length = k) (hsys : ctx.n_uS ≤ ctx.N_var) :
    Upd n m (fun x F => g.prodSide false ctx x (a, a + k) uK n_mu s n_sensor F) (fun y B => g.prodSide true ctx y (a, a + k) uK n_mu s n_sensor B)
      (covM a k (fun i => s * ent JB i / ent uK i) dR) := by
  obtain ⟨name, xt, al, t, R, JR, B, adj, h1, h2, h3, h4, h5, h6, h7, h8, h9⟩ := h
  unfold GN.prodSide
  simp only [pyGet_some h1, h2, h3, h4, h5, pyGet_some h6, h7, bind, Except.bind]
  cases JR with
  | none =>
    obtain ⟨ib, uR, hr, rfl⟩ := h9
    exact upd_ref hr (by omega) hm h8 hK
  | some JR =>
    obtain ⟨labels', blk, hl', hmem, hJ, hk, hblk, rfl⟩ := h9
    rw [hl] at hl'
    obtain rfl : labels = labels' := by simpa using hl'
    have hcov := Upd.foldl (n := n) (m := m) (l := List.range ctx.N_cov)
      (fw := fun c x F => g.covTerm false ctx x s JB uK (a, a + k) n_sensor n_mu JR F c)
      (bw := fun c y B => g.covTerm true ctx y s JB uK (a, a + k) n_sensor n_mu JR B c)
      (M := fun c => covM a k (fun i => s * ent JB i * ent (JR.getD c []) i / ent uK i) (g.hd.mu.unconvM ctx.N_var ctx.n_uS k (blk c)))
      (fun c hc => by
        have hc' := List.mem_range.1 hc
        have hlt : c < JR.length := by omega
        obtain ⟨hb, hok⟩ := hblk c hc'
        refine upd_covTerm hb hok hsys (by omega) hm h8 hK (JRc := JR.getD c []) ?_ (hk _ ?_)
        · simp [List.getD, hlt]
        · simp [List.getD, hlt])
    have hpar := upd_param (n := n) (m := m) (a := a) (k := k) (s := s) hl hmem hn hm h8 hK hJ hk
    refine Upd.congrM (M := fun r c => ((List.range ctx.N_cov).map fun v => covM a k (fun i => s * ent JB i * ent (JR.getD v []) i / ent uK i)
      (g.hd.mu.unconvM ctx.N_var ctx.n_uS k (blk v)) r c).sum + covM a k (fun i => s * ent JB i / ent uK i)
        (gatherM (paramPositions labels ctx.N_var name).length (fun p => (paramPositions labels ctx.N_var name).getD p 0)
          fun i p => ent (JR.getD (ctx.N_cov + p) []) i) r c) ?_ fun r c _ _ => ?_
    · exact hcov.comp hpar
    · have he : ∀ v, (fun i => s * ent JB i * ent (JR.getD v []) i / ent uK i) = fun i => (s * ent JB i / ent uK i) * ent (JR.getD v []) i := by
        intro v; funext i; ring
      simp only [he]
      rw [covM_sum (e := fun i => s * ent JB i / ent uK i) (f := fun v i => ent (JR.getD v []) i), covM_add]

end Verif
