import Verif.Lemmas.GNProd
/-
One covariate block in `calc_prod_JPx`: the update adds `diag(s JB JR / uK) U` where `U` is the matrix of the un-normalisation of the block.
-/
set_option autoImplicit false
namespace Verif
open Finset (sum_congr)
variable {α δ : Type}

/-- Rows of a matrix which gathers the entries at `pos` with coefficients `d`. -/
def gatherM [Field α] (l : Nat) (pos : Nat → Nat) (d : Nat → Nat → α) (i c : Nat) : α := ∑ j ∈ Finset.range l, if pos j = c then d i j else 0

theorem gatherM_apply [Field α] {l n : Nat} {pos : Nat → Nat} {d : Nat → Nat → α} (hp : ∀ j, j < l → pos j < n) (x : Nat → α) (i : Nat) :
    ∑ c ∈ Finset.range n, gatherM l pos d i c * x c = ∑ j ∈ Finset.range l, d i j * x (pos j) := by
  simp only [gatherM, Finset.sum_mul]
  rw [Finset.sum_comm]
  apply sum_congr rfl
  intro j hj
  simp only [ite_mul, zero_mul]
  rw [Finset.sum_ite_eq (Finset.range n) (pos j) fun c => d i j * x c]
  simp [hp j (Finset.mem_range.1 hj)]

/-- Position in the solver's vector of the systematic error numbered `i`. -/
def sysPos (N_var n_uS : Nat) (i : Option Nat) : Nat := N_var - n_uS + i.getD 0 - 1

/-- The matrix which un-normalises block `b` (with `k` match-ups). -/
def MatchUp.unconvM [Field α] (mu : MatchUp α δ) (N_var n_uS k b : Nat) : Nat → Nat → α :=
  let ib := mu.idx.idx.getD b 0
  match mu.unc[b]? with
  | none => fun _ _ => 0
  | some u => match u.unc with
    | .independent uR => gatherM k (fun j => ib + j) (diagM (ent uR))
    | .systematic uR uS => fun i c => gatherM k (fun j => ib + j) (diagM (ent uR)) i c + gatherM 1 (fun _ => sysPos N_var n_uS u.uS_i) (fun i _ => ent uS i) i c
    | .structured w_i u_i => match mu.w_matrices[w_i]?, mu.u_matrices[u_i]? with
      | some (some w), some (some uv) => gatherM w.ncols (fun j => ib + j) fun i j => w.dense i j * ent uv j
      | _, _ => fun _ _ => 0
    | .structuredSystematic w_i u_i uS => match mu.w_matrices[w_i]?, mu.u_matrices[u_i]? with
      | some (some w), some (some uv) => fun i c => gatherM w.ncols (fun j => ib + j) (fun i j => w.dense i j * ent uv j) i c +
          gatherM 1 (fun _ => sysPos N_var n_uS u.uS_i) (fun i _ => ∑ j ∈ Finset.range w.ncols, w.dense i j * uS) i c
      | _, _ => fun _ _ => 0

/-- Block `b` is a consistent normalised block for a series of `k` match-ups. -/
def MatchUp.BlockOk (mu : MatchUp α δ) (N_var n_uS k b : Nat) : Prop :=
  ∃ ib nb u, mu.idx.idx[b]? = some ib ∧ mu.idx.N_var[b]? = some nb ∧ mu.unc[b]? = some u ∧ ib + nb ≤ N_var ∧
    match u.unc with
    | .independent uR => uR.length = k ∧ nb = k
    | .systematic uR uS => uR.length = k ∧ uS.length = k ∧ nb = k ∧ ∃ q, u.uS_i = some q ∧ 1 ≤ q ∧ q ≤ n_uS
    | .structured w_i u_i => ∃ w uv, mu.w_matrices[w_i]? = some (some w) ∧ mu.u_matrices[u_i]? = some (some uv) ∧ w.Shape ∧ w.nrows = k ∧
        uv.length = w.ncols ∧ nb = w.ncols
    | .structuredSystematic w_i u_i _ => (∃ w uv, mu.w_matrices[w_i]? = some (some w) ∧ mu.u_matrices[u_i]? = some (some uv) ∧ w.Shape ∧
        w.nrows = k ∧ uv.length = w.ncols ∧ nb = w.ncols) ∧ ∃ q, u.uS_i = some q ∧ 1 ≤ q ∧ q ≤ n_uS

/-- The matrix added by one covariate of one sensor in one series with rows `a .. a+k`. -/
def covM [Field α] (a k : Nat) (e : Nat → α) (U : Nat → Nat → α) (r c : Nat) : α := if a ≤ r ∧ r < a + k then e (r - a) * U (r - a) c else 0

theorem blockM_eq_covM [Field α] {a k l : Nat} {pos : Nat → Nat} {e : Nat → α} {d D : Nat → Nat → α} {r c : Nat}
    (h : ∀ i j, i < k → j < l → D i j = e i * d i j) : blockM a k l pos D r c = covM a k e (gatherM l pos d) r c := by
  unfold blockM covM gatherM
  split
  · rw [Finset.mul_sum]
    apply sum_congr rfl
    intro j hj
    rw [h (r - a) j (by omega) (Finset.mem_range.1 hj)]
    split <;> simp
  · rfl

theorem covM_add [Field α] {a k : Nat} {e : Nat → α} {U V : Nat → Nat → α} {r c : Nat} :
    covM a k e U r c + covM a k e V r c = covM a k e (fun i c => U i c + V i c) r c := by
  unfold covM; split
  · ring
  · ring

theorem pyGet_some {β : Type} {l : List β} {i : Nat} {x : β} (h : l[i]? = some x) : pyGet l i = .ok x := by simp [pyGet, h]

theorem getSlot_some {β : Type} {l : List (Option β)} {i : Nat} {m : β} (h : l[i]? = some (some m)) : getSlot l i = .ok m := by
  simp [getSlot, pyGet_some h, bind, Except.bind, pure, Except.pure]

theorem sys_int {N_var n_uS q : Nat} (h1 : 1 ≤ q) (h2 : q ≤ n_uS) (h3 : n_uS ≤ N_var) :
    ((N_var : Int) - n_uS - 1 + q) = ((sysPos N_var n_uS (some q) : Nat) : Int) := by
  simp only [sysPos, Option.getD_some]; omega

theorem ent_map_mul [Field α] {s : α} {l : List α} {i : Nat} : ent (l.map (s * ·)) i = s * ent l i := by
  simp only [ent, List.getD, List.getElem?_map]
  cases l[i]? <;> simp

theorem ent_map_mul' [Field α] {s : α} {l : List α} {i : Nat} : ent (l.map (· * s)) i = ent l i * s := by
  simp only [ent, List.getD, List.getElem?_map]
  cases l[i]? <;> simp

theorem gather_one [Field α] {p : Nat} {f : Nat → α} {i c : Nat} : gatherM 1 (fun _ => p) (fun i _ => f i) i c = if p = c then f i else 0 := by
  simp [gatherM]

/-- The systematic term. -/
theorem upd_sys [Field α] {n m a k p : Nat} {f : Nat → α} {fw bw : List α → List α → Py (List α)} (hm : a + k ≤ m) (hp : p < n)
    (hfw : ∀ x F : List α, x.length = n → F.length = m → fw x F = addSlice F a (a + k) (vector k fun i => f i * ent x p))
    (hbw : ∀ y B : List α, y.length = m → B.length = n → bw y B = addAt B (p : Int) (∑ i ∈ Finset.range k, f i * ent y (a + i))) :
    Upd n m fw bw (blockM a k 1 (fun _ => p) fun i _ => f i) := by
  refine upd_block hm (fun _ _ => hp) (fun x F hx hF => ?_) (fun y B hy hB => ?_)
  · rw [hfw x F hx hF]; simp
  · rw [hbw y B hy hB, addAt_vector (by omega), hB]
    congr 1
    apply vector_congr
    intro c _
    simp [scatter]

theorem upd_covTerm [Field α] {g : GN α δ} {ctx : ProdCtx} {n m a k n_sensor n_mu c b : Nat} {s : α} {JB JRc uK : List α} {JR : List (List α)}
    (hb : pyIndex g.hd.mu.idx.blocks (n_sensor, n_mu, c + 1) = .ok b) (hok : g.hd.mu.BlockOk ctx.N_var ctx.n_uS k b)
    (hsys : ctx.n_uS ≤ ctx.N_var) (hn : ctx.N_var ≤ n) (hm : a + k ≤ m) (hB : JB.length = k) (hK : uK.length = k) (hJ : JR[c]? = some JRc)
    (hR : JRc.length = k) :
    Upd n m (fun x F => g.covTerm false ctx x s JB uK (a, a + k) n_sensor n_mu JR F c)
      (fun y B => g.covTerm true ctx y s JB uK (a, a + k) n_sensor n_mu JR B c)
      (covM a k (fun i => s * ent JB i * ent JRc i / ent uK i) (g.hd.mu.unconvM ctx.N_var ctx.n_uS k b)) := by
  obtain ⟨ib, nb, u, hib, hnb, hu, hle, hk⟩ := hok
  have hgetD : g.hd.mu.idx.idx.getD b 0 = ib := by simp [List.getD, hib]
  unfold GN.covTerm MatchUp.unconvM
  simp only [hb, pyGet_some hib, pyGet_some hnb, pyGet_some hu, pyGet_some hJ, bind, Except.bind, hu, hgetD]
  have hpre : npZip (· * ·) (JB.map (s * ·)) JRc = .ok (vector k fun i => s * ent JB i * ent JRc i) := by
    rw [npZip_ent (n := k) (by simpa using hB) hR]
    simp only [ent_map_mul]
  have hjj : npZip (· * ·) JB JRc = .ok (vector k fun i => ent JB i * ent JRc i) := npZip_ent hB hR
  cases hunc : u.unc with
  | independent uR =>
    simp only [hunc] at hk
    obtain ⟨hR', rfl⟩ := hk
    simp only [hpre, if_true, Bool.false_eq_true, if_false]
    refine (upd_rand hm (by omega) (vector_length _ _) hR' hK).congrM fun r c _ _ => ?_
    refine blockM_eq_covM fun i j hi hj => ?_
    simp only [diagM]
    split
    · rw [ent_vector hi]; ring
    · ring
  | systematic uR uS =>
    simp only [hunc] at hk
    obtain ⟨hR', hS, rfl, q, hq, hq1, hq2⟩ := hk
    simp only [hq, hpre, hjj, if_true, Bool.false_eq_true, if_false]
    have h1 := (upd_rand (n := n) (m := m) (a := a) (b := ib) (pre := vector nb fun i => s * ent JB i * ent JRc i) hm (by omega) (vector_length _ _) hR' hK)
    have hp : sysPos ctx.N_var ctx.n_uS (some q) < n := by simp only [sysPos, Option.getD_some]; omega
    have h2 : Upd n m (fun x F => (do
        let xs ← pyGetInt x ((ctx.N_var : Int) - ctx.n_uS - 1 + q)
        let v ← npZip (· * ·) (((vector nb fun i => ent JB i * ent JRc i).map (s * ·)).map (· * xs)) uS
        let v ← npZip (· / ·) v uK
        addSlice F a (a + nb) v : Py (List α)))
      (fun y B => (do
        let v ← npZip (· * ·) (vector nb fun i => ent JB i * ent JRc i) uS
        let v ← npZip (· / ·) v uK
        let d ← npDot v (slice y a (a + nb))
        addAt B ((ctx.N_var : Int) - ctx.n_uS - 1 + q) (s * d) : Py (List α)))
      (blockM a nb 1 (fun _ => sysPos ctx.N_var ctx.n_uS (some q)) fun i _ => s * ent JB i * ent JRc i / ent uK i * ent uS i) := by
      refine upd_sys hm hp (fun x F hx hF => ?_) (fun y B hy hB => ?_)
      · rw [sys_int hq1 hq2 hsys, pyGetInt_nat, pyGet_ent (by omega)]
        simp only [bind, Except.bind]
        rw [npZip_ent (n := nb) (by simp) hS]
        simp only []
        rw [npZip_ent (vector_length _ _) hK]
        simp only []
        congr 1
        apply vector_congr
        intro i hi
        rw [ent_vector hi, ent_map_mul', ent_map_mul, ent_vector hi]
        ring
      · rw [sys_int hq1 hq2 hsys, npZip_ent (vector_length _ _) hS]
        simp only [bind, Except.bind]
        rw [npZip_ent (vector_length _ _) hK]
        simp only []
        rw [npDot_vector (n := nb) (vector_length _ _) (by simp [slice]; omega)]
        simp only []
        congr 1
        rw [Finset.mul_sum]
        refine sum_congr rfl fun i hi => ?_
        have hi' := Finset.mem_range.1 hi
        rw [slice_eq_vector (by omega), ent_vector hi', ent_vector hi', ent_vector hi', ent_vector (by omega)]
        ring
    have h3 := h1.comp h2
    refine Upd.congrM (M := fun r c => blockM a nb nb (fun j => ib + j) (diagM fun i => ent (vector nb fun i => s * ent JB i * ent JRc i) i * ent uR i / ent uK i) r c +
      blockM a nb 1 (fun _ => sysPos ctx.N_var ctx.n_uS (some q)) (fun i _ => s * ent JB i * ent JRc i / ent uK i * ent uS i) r c) ?_ fun r c _ _ => ?_
    · refine ⟨fun x F hx hF => ?_, fun y B hy hB => ?_⟩
      · have := h3.fwd x F hx hF
        simp only [bind, Except.bind] at this ⊢
        exact this
      · have := h3.bwd y B hy hB
        simp only [bind, Except.bind] at this ⊢
        exact this
    · rw [← covM_add]
      congr 1
      · refine blockM_eq_covM fun i j hi hj => ?_
        simp only [diagM]
        split
        · rw [ent_vector hi]; ring
        · ring
      · exact blockM_eq_covM fun i j hi hj => rfl
  | structured w_i u_i =>
    simp only [hunc] at hk
    obtain ⟨w, uv, hw, huv, hsh, rfl, hl, rfl⟩ := hk
    simp only [getSlot_some hw, getSlot_some huv, hw, huv]
    refine (upd_w hsh hm (by omega) hB hR hK hl).congrM fun r c _ _ => ?_
    refine blockM_eq_covM fun i j hi hj => ?_
    ring
  | structuredSystematic w_i u_i uS =>
    simp only [hunc] at hk
    obtain ⟨⟨w, uv, hw, huv, hsh, rfl, hl, rfl⟩, q, hq, hq1, hq2⟩ := hk
    simp only [hq, getSlot_some hw, getSlot_some huv, hw, huv, hjj, if_true, Bool.false_eq_true, if_false]
    have h1 := upd_w (n := n) (m := m) (a := a) (b := ib) (s := s) hsh hm (by omega) hB hR hK hl
    have hp : sysPos ctx.N_var ctx.n_uS (some q) < n := by simp only [sysPos, Option.getD_some]; omega
    have h2 : Upd n m (fun x F => (do
        let xs ← pyGetInt x ((ctx.N_var : Int) - ctx.n_uS - 1 + q)
        let q ← csrDot w ((uv.map fun _ => uS * 1).map (· * xs))
        let v ← npZip (· * ·) ((vector w.nrows fun i => ent JB i * ent JRc i).map (s * ·)) q
        let v ← npZip (· / ·) v uK
        addSlice F a (a + w.nrows) v : Py (List α)))
      (fun y B => (do
        let q' ← csrDot w (uv.map fun _ => uS * 1)
        let v ← npZip (· * ·) (vector w.nrows fun i => ent JB i * ent JRc i) q'
        let v ← npZip (· / ·) v uK
        let d ← npDot v (slice y a (a + w.nrows))
        addAt B ((ctx.N_var : Int) - ctx.n_uS - 1 + q) (s * d) : Py (List α)))
      (blockM a w.nrows 1 (fun _ => sysPos ctx.N_var ctx.n_uS (some q)) fun i _ => s * ent JB i * ent JRc i / ent uK i *
        ∑ j ∈ Finset.range w.ncols, w.dense i j * uS) := by
      have hus : ∀ j, j < w.ncols → ent (uv.map fun _ => uS * 1) j = uS := by
        intro j hj
        simp [ent, List.getD, hl, hj]
      refine upd_sys hm hp (fun x F hx hF => ?_) (fun y B hy hB => ?_)
      · rw [sys_int hq1 hq2 hsys, pyGetInt_nat, pyGet_ent (by omega)]
        simp only [bind, Except.bind]
        rw [csrDot_vector hsh (by simpa using hl)]
        simp only []
        rw [npZip_ent (n := w.nrows) (by simp) (vector_length _ _)]
        simp only []
        rw [npZip_ent (vector_length _ _) hK]
        simp only []
        congr 1
        apply vector_congr
        intro i hi
        rw [ent_vector hi, ent_map_mul, ent_vector hi, ent_vector hi]
        have : ∑ c ∈ Finset.range w.ncols, w.dense i c * ent ((uv.map fun _ => uS * 1).map (· * ent x (sysPos ctx.N_var ctx.n_uS (some q)))) c =
            (∑ j ∈ Finset.range w.ncols, w.dense i j * uS) * ent x (sysPos ctx.N_var ctx.n_uS (some q)) := by
          rw [Finset.sum_mul]
          refine sum_congr rfl fun j hj => ?_
          rw [ent_map_mul', hus j (Finset.mem_range.1 hj)]
          ring
        rw [this]
        ring
      · rw [sys_int hq1 hq2 hsys, csrDot_vector hsh (by simpa using hl)]
        simp only [bind, Except.bind]
        rw [npZip_ent (vector_length _ _) (vector_length _ _)]
        simp only []
        rw [npZip_ent (vector_length _ _) hK]
        simp only []
        rw [npDot_vector (n := w.nrows) (vector_length _ _) (by simp [slice]; omega)]
        simp only []
        congr 1
        rw [Finset.mul_sum]
        refine sum_congr rfl fun i hi => ?_
        have hi' := Finset.mem_range.1 hi
        rw [slice_eq_vector (by omega), ent_vector hi', ent_vector hi', ent_vector hi', ent_vector hi', ent_vector (by omega)]
        have : ∑ c ∈ Finset.range w.ncols, w.dense i c * ent (uv.map fun _ => uS * 1) c = ∑ j ∈ Finset.range w.ncols, w.dense i j * uS :=
          sum_congr rfl fun j hj => by rw [hus j (Finset.mem_range.1 hj)]
        rw [this]
        ring
    have h3 := h1.comp h2
    refine Upd.congrM (M := fun r c => blockM a w.nrows w.ncols (fun j => ib + j) (fun i j => s * ent JB i * ent JRc i * w.dense i j * ent uv j / ent uK i) r c +
      blockM a w.nrows 1 (fun _ => sysPos ctx.N_var ctx.n_uS (some q)) (fun i _ => s * ent JB i * ent JRc i / ent uK i *
        ∑ j ∈ Finset.range w.ncols, w.dense i j * uS) r c) ?_ fun r c _ _ => ?_
    · refine ⟨fun x F hx hF => ?_, fun y B hy hB => ?_⟩
      · have := h3.fwd x F hx hF
        simp only [bind, Except.bind] at this ⊢
        exact this
      · have := h3.bwd y B hy hB
        simp only [bind, Except.bind] at this ⊢
        exact this
    · rw [← covM_add]
      congr 1
      · refine blockM_eq_covM fun i j hi hj => ?_
        ring
      · exact blockM_eq_covM fun i j hi hj => rfl

end Verif
