import Verif.Lemmas.GNVec
import Mathlib.Algebra.BigOperators.Field
/-
The paired forward / transposed updates of `calc_prod_JPx` multiply by one matrix and by its transpose.
-/
set_option autoImplicit false
namespace Verif
open Finset (sum_congr)
variable {α δ : Type}

/-- `fw x F` adds `M x` to `F` and `bw y B` adds `Mᵀ y` to `B`, for vectors of the sizes `n` (columns) and `m` (rows). -/
structure Upd [Field α] (n m : Nat) (fw bw : List α → List α → Py (List α)) (M : Nat → Nat → α) : Prop where
  fwd : ∀ x F : List α, x.length = n → F.length = m → fw x F = .ok (vector m fun r => ent F r + ∑ c ∈ Finset.range n, M r c * ent x c)
  bwd : ∀ y B : List α, y.length = m → B.length = n → bw y B = .ok (vector n fun c => ent B c + ∑ r ∈ Finset.range m, M r c * ent y r)

theorem Upd.comp [Field α] {n m : Nat} {fw bw fw' bw' : List α → List α → Py (List α)} {M M' : Nat → Nat → α} (h : Upd n m fw bw M)
    (h' : Upd n m fw' bw' M') : Upd n m (fun x F => do let F ← fw x F; fw' x F) (fun y B => do let B ← bw y B; bw' y B) fun r c => M r c + M' r c := by
  refine ⟨fun x F hx hF => ?_, fun y B hy hB => ?_⟩
  · rw [h.fwd x F hx hF]
    simp only [bind, Except.bind]
    rw [h'.fwd x _ hx (vector_length _ _)]
    congr 1
    apply vector_congr
    intro r hr
    rw [ent_vector hr]
    simp only [add_mul, Finset.sum_add_distrib]
    ring
  · rw [h.bwd y B hy hB]
    simp only [bind, Except.bind]
    rw [h'.bwd y _ hy (vector_length _ _)]
    congr 1
    apply vector_congr
    intro r hr
    rw [ent_vector hr]
    simp only [add_mul, Finset.sum_add_distrib]
    ring

theorem Upd.foldl [Field α] {β : Type} {n m : Nat} {fw bw : β → List α → List α → Py (List α)} {M : β → Nat → Nat → α} : ∀ {l : List β},
    (∀ b ∈ l, Upd n m (fw b) (bw b) (M b)) →
    Upd n m (fun x F => l.foldlM (fun F b => fw b x F) F) (fun y B => l.foldlM (fun B b => bw b y B) B) fun r c => (l.map fun b => M b r c).sum := by
  intro l
  induction l with
  | nil =>
    intro _
    refine ⟨fun x F hx hF => ?_, fun y B hy hB => ?_⟩
    · simp only [List.foldlM_nil, List.map_nil, List.sum_nil, zero_mul, Finset.sum_const_zero, add_zero]
      exact congrArg _ (eq_vector hF)
    · simp only [List.foldlM_nil, List.map_nil, List.sum_nil, zero_mul, Finset.sum_const_zero, add_zero]
      exact congrArg _ (eq_vector hB)
  | cons b l ih =>
    intro h
    have := (h b (by simp)).comp (ih fun b hb => h b (by simp [hb]))
    simpa only [List.foldlM_cons, List.map_cons, List.sum_cons] using this

theorem Upd.congrM [Field α] {n m : Nat} {fw bw : List α → List α → Py (List α)} {M M' : Nat → Nat → α} (h : Upd n m fw bw M)
    (hM : ∀ r c, r < m → c < n → M r c = M' r c) : Upd n m fw bw M' := by
  refine ⟨fun x F hx hF => ?_, fun y B hy hB => ?_⟩
  · rw [h.fwd x F hx hF]
    congr 1
    apply vector_congr
    intro r hr
    congr 1
    exact sum_congr rfl fun c hc => by rw [hM r c hr (Finset.mem_range.1 hc)]
  · rw [h.bwd y B hy hB]
    congr 1
    apply vector_congr
    intro c hc
    congr 1
    exact sum_congr rfl fun r hr => by rw [hM r c (Finset.mem_range.1 hr) hc]

/-- A block of the matrix: rows `a .. a+k`, columns `pos 0 .. pos (l-1)`, entries `D`. -/
def blockM [Field α] (a k l : Nat) (pos : Nat → Nat) (D : Nat → Nat → α) (r c : Nat) : α :=
  if a ≤ r ∧ r < a + k then ∑ j ∈ Finset.range l, if pos j = c then D (r - a) j else 0 else 0

theorem blockM_fwd [Field α] {a k l n : Nat} {pos : Nat → Nat} {D : Nat → Nat → α} (hp : ∀ j, j < l → pos j < n) (x : Nat → α) (r : Nat) :
    ∑ c ∈ Finset.range n, blockM a k l pos D r c * x c =
      if a ≤ r ∧ r < a + k then ∑ j ∈ Finset.range l, D (r - a) j * x (pos j) else 0 := by
  by_cases h : a ≤ r ∧ r < a + k
  · simp only [blockM, if_pos h, Finset.sum_mul]
    rw [Finset.sum_comm]
    apply sum_congr rfl
    intro j hj
    simp only [ite_mul, zero_mul]
    rw [Finset.sum_ite_eq (Finset.range n) (pos j) fun c => D (r - a) j * x c]
    simp [hp j (Finset.mem_range.1 hj)]
  · simp only [blockM, if_neg h, zero_mul, Finset.sum_const_zero]

theorem sum_window [Field α] {a k m : Nat} (h : a + k ≤ m) (f : Nat → α) :
    ∑ r ∈ Finset.range m, (if a ≤ r ∧ r < a + k then f r else 0) = ∑ i ∈ Finset.range k, f (a + i) := by
  rw [← Finset.sum_filter]
  have : (Finset.range m).filter (fun r => a ≤ r ∧ r < a + k) = Finset.Ico a (a + k) := by
    ext r; simp; omega
  rw [this, Finset.sum_Ico_eq_sum_range]
  simp

theorem blockM_bwd [Field α] {a k l m : Nat} {pos : Nat → Nat} {D : Nat → Nat → α} (hm : a + k ≤ m) (y : Nat → α) (c : Nat) :
    ∑ r ∈ Finset.range m, blockM a k l pos D r c * y r = scatter l pos (fun j => ∑ i ∈ Finset.range k, D i j * y (a + i)) c := by
  have h1 : ∀ r, blockM a k l pos D r c * y r = if a ≤ r ∧ r < a + k then (∑ j ∈ Finset.range l, (if pos j = c then D (r - a) j else 0)) * y r else 0 := by
    intro r; simp only [blockM]; split <;> simp
  simp only [h1]
  rw [sum_window hm fun r => (∑ j ∈ Finset.range l, (if pos j = c then D (r - a) j else 0)) * y r]
  simp only [Nat.add_sub_cancel_left, Finset.sum_mul, scatter]
  rw [Finset.sum_comm]
  apply sum_congr rfl
  intro j _
  split <;> simp

/-- A contiguous destination. -/
theorem scatter_window [Field α] {b l : Nat} (v : Nat → α) (c : Nat) :
    scatter l (fun j => b + j) v c = if b ≤ c ∧ c < b + l then v (c - b) else 0 := by
  unfold scatter
  by_cases h : b ≤ c ∧ c < b + l
  · rw [if_pos h, Finset.sum_eq_single (c - b)]
    · rw [if_pos (show b + (c - b) = c by omega)]
    · intro j _ hj; rw [if_neg (show ¬ (b + j = c) by omega)]
    · intro hj; exact absurd (Finset.mem_range.2 (by omega)) hj
  · rw [if_neg h]
    apply Finset.sum_eq_zero
    intro j hj
    have := Finset.mem_range.1 hj
    rw [if_neg (show ¬ (b + j = c) by omega)]

/-- An update which adds `D x[pos]` to a window of rows, and `Dᵀ y[rows]` at the positions. -/
theorem upd_block [Field α] {n m a k l : Nat} {pos : Nat → Nat} {D : Nat → Nat → α} {fw bw : List α → List α → Py (List α)} (hm : a + k ≤ m)
    (hp : ∀ j, j < l → pos j < n)
    (hfw : ∀ x F : List α, x.length = n → F.length = m →
      fw x F = addSlice F a (a + k) (vector k fun i => ∑ j ∈ Finset.range l, D i j * ent x (pos j)))
    (hbw : ∀ y B : List α, y.length = m → B.length = n →
      bw y B = .ok (vector n fun c => ent B c + scatter l pos (fun j => ∑ i ∈ Finset.range k, D i j * ent y (a + i)) c)) :
    Upd n m fw bw (blockM a k l pos D) := by
  refine ⟨fun x F hx hF => ?_, fun y B hy hB => ?_⟩
  · rw [hfw x F hx hF, addSlice_vector (vector_length _ _) (by omega), hF]
    congr 1
    apply vector_congr
    intro r hr
    rw [blockM_fwd hp]
    congr 1
    by_cases h : a ≤ r ∧ r < a + k
    · rw [if_pos h, if_pos h, ent_vector (by omega)]
    · rw [if_neg h, if_neg h]
  · rw [hbw y B hy hB]
    congr 1
    apply vector_congr
    intro c hc
    rw [blockM_bwd hm]

/-- The same with a contiguous window of columns. -/
theorem upd_window [Field α] {n m a k l b : Nat} {D : Nat → Nat → α} {fw bw : List α → List α → Py (List α)} (hm : a + k ≤ m)
    (hn : b + l ≤ n)
    (hfw : ∀ x F : List α, x.length = n → F.length = m →
      fw x F = addSlice F a (a + k) (vector k fun i => ∑ j ∈ Finset.range l, D i j * ent x (b + j)))
    (hbw : ∀ y B : List α, y.length = m → B.length = n →
      bw y B = addSlice B b (b + l) (vector l fun j => ∑ i ∈ Finset.range k, D i j * ent y (a + i))) :
    Upd n m fw bw (blockM a k l (fun j => b + j) D) := by
  refine upd_block hm (fun j hj => by omega) hfw fun y B hy hB => ?_
  rw [hbw y B hy hB, addSlice_vector (vector_length _ _) (by omega), hB]
  congr 1
  apply vector_congr
  intro c hc
  rw [scatter_window]
  congr 1
  by_cases h : b ≤ c ∧ c < b + l
  · rw [if_pos h, if_pos h, ent_vector (by omega)]
  · rw [if_neg h, if_neg h]

/-- Diagonal matrix. -/
def diagM [Field α] (d : Nat → α) (i j : Nat) : α := if i = j then d i else 0

theorem diag_fwd [Field α] {k i : Nat} (d : Nat → α) (x : Nat → α) (hi : i < k) : ∑ j ∈ Finset.range k, diagM d i j * x j = d i * x i := by
  simp only [diagM, ite_mul, zero_mul]
  rw [Finset.sum_ite_eq (Finset.range k) i fun j => d i * x j]
  simp [hi]

theorem diag_bwd [Field α] {k j : Nat} (d : Nat → α) (y : Nat → α) (hj : j < k) : ∑ i ∈ Finset.range k, diagM d i j * y i = d j * y j := by
  simp only [diagM, ite_mul, zero_mul]
  rw [Finset.sum_ite_eq' (Finset.range k) j fun i => d i * y i]
  simp [hj]

theorem randTerm_eq [Field α] {x out pre uR uK : List α} {a b k : Nat} (hx : a + k ≤ x.length) (hp : pre.length = k) (hu : uR.length = k)
    (hK : uK.length = k) : randTerm x out pre uR uK (a, a + k) (b, b + k) =
      addSlice out b (b + k) (vector k fun i => ent pre i * ent x (a + i) * ent uR i / ent uK i) := by
  unfold randTerm
  rw [slice_eq_vector hx]
  have hk : a + k - a = k := by omega
  simp only [hk]
  rw [npZip_ent hp (vector_length _ _)]
  simp only [bind, Except.bind]
  rw [npZip_ent (vector_length _ _) hu]
  simp only [npZip_ent (vector_length _ _) hK]
  congr 1
  apply vector_congr
  intro i hi
  simp only [ent_vector hi]

/-- The random term, for an uncertainty vector and a factor. -/
theorem upd_rand [Field α] {n m a b k : Nat} {pre uR uK : List α} (hm : a + k ≤ m) (hn : b + k ≤ n) (hp : pre.length = k) (hu : uR.length = k)
    (hK : uK.length = k) : Upd n m (fun x F => randTerm x F pre uR uK (b, b + k) (a, a + k)) (fun y B => randTerm y B pre uR uK (a, a + k) (b, b + k))
      (blockM a k k (fun j => b + j) (diagM fun i => ent pre i * ent uR i / ent uK i)) := by
  refine upd_window hm hn (fun x F hx hF => ?_) (fun y B hy hB => ?_)
  · rw [randTerm_eq (by omega) hp hu hK]
    congr 1
    apply vector_congr
    intro i hi
    rw [diag_fwd _ (fun j => ent x (b + j)) hi]
    ring
  · rw [randTerm_eq (by omega) hp hu hK]
    congr 1
    apply vector_congr
    intro i hi
    rw [diag_bwd _ (fun j => ent y (a + j)) hi]
    ring

/-- The structured random term. -/
theorem upd_w [Field α] {n m a b : Nat} {s : α} {JB JRc uK u : List α} {w : CSR α} (hw : w.Shape) (hm : a + w.nrows ≤ m) (hn : b + w.ncols ≤ n)
    (hB : JB.length = w.nrows) (hR : JRc.length = w.nrows) (hK : uK.length = w.nrows) (hu : u.length = w.ncols) :
    Upd n m (fun x F => wTerm false x s JB JRc uK (a, a + w.nrows) (b, b + w.ncols) w u F)
      (fun y B => wTerm true y s JB JRc uK (a, a + w.nrows) (b, b + w.ncols) w u B)
      (blockM a w.nrows w.ncols (fun j => b + j) fun i j => s * ent JB i * ent JRc i * w.dense i j * ent u j / ent uK i) := by
  refine upd_window hm hn (fun x F hx hF => ?_) (fun y B hy hB' => ?_)
  · unfold wTerm
    simp only [Bool.false_eq_true, if_false]
    rw [npZip_ent (by simpa using hB) hR, slice_eq_vector (by omega)]
    have hk : b + w.ncols - b = w.ncols := by omega
    simp only [bind, Except.bind, hk]
    rw [npZip_ent hu (vector_length _ _)]
    simp only []
    rw [csrDot_vector hw (vector_length _ _)]
    simp only []
    rw [npZip_ent (vector_length _ _) (vector_length _ _)]
    simp only []
    rw [npZip_ent (vector_length _ _) hK]
    simp only []
    congr 1
    apply vector_congr
    intro i hi
    have h1 : ent (List.map (fun x => s * x) JB) i = s * ent JB i := by simp [ent, List.getD, hB, hi]
    rw [ent_vector hi, ent_vector hi, ent_vector hi, h1, Finset.mul_sum, Finset.sum_div]
    apply sum_congr rfl
    intro j hj
    rw [ent_vector (Finset.mem_range.1 hj), ent_vector (Finset.mem_range.1 hj)]
    ring
  · unfold wTerm
    simp only [if_true]
    rw [npZip_ent hB hR, slice_eq_vector (by omega)]
    have hk : a + w.nrows - a = w.nrows := by omega
    simp only [bind, Except.bind, hk]
    rw [npZip_ent (vector_length _ _) (vector_length _ _)]
    simp only []
    rw [npZip_ent (vector_length _ _) hK]
    simp only []
    rw [csrTDot_vector (vector_length _ _)]
    simp only []
    rw [npZip_ent (n := w.ncols) (by simpa using hu) (vector_length _ _)]
    simp only []
    congr 1
    apply vector_congr
    intro j hj
    have h1 : ent (List.map (fun x => s * x) u) j = s * ent u j := by simp [ent, List.getD, hu, hj]
    rw [ent_vector hj, h1, Finset.mul_sum]
    apply sum_congr rfl
    intro i hi
    have hi' := Finset.mem_range.1 hi
    rw [ent_vector hi', ent_vector hi', ent_vector hi', ent_vector hi']
    ring

end Verif
