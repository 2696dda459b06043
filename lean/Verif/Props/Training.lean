import Verif.Model.Training
import Verif.Props.MinresCase
/-
C92: the window functions of the regridding lecture.
-/
set_option autoImplicit false
namespace Verif
namespace Regrid
open scoped BigOperators
variable {α : Type} [Field α] [LinearOrder α] {r c : Nat}

/-! ### Specification -/

/-- The pixel `(p, q)` lies in the rectangle with `height` rows from `top` on and `width` columns from `left` on. -/
def InRect (top left : Int) (height width : Nat) (p : Fin r) (q : Fin c) : Prop :=
  (top ≤ (p : Int) ∧ (p : Int) < top + height) ∧ left ≤ (q : Int) ∧ (q : Int) < left + width

instance (top left : Int) (height width : Nat) (p : Fin r) (q : Fin c) : Decidable (InRect top left height width p q) := by unfold InRect; infer_instance

/-- The rectangle lies inside the picture. -/
def Fits (r c : Nat) (top left : Int) (height width : Nat) : Prop := 0 ≤ top ∧ top + height ≤ r ∧ 0 ≤ left ∧ left + width ≤ c

/-! ### The window -/

theorem axisIndex_ok {n : Nat} {k : Int} {p : Fin n} : axisIndex n k = .ok p ↔ ((p : Int) = k ∨ (p : Int) = k + n) ∧ -n ≤ k ∧ k < n := by
  unfold axisIndex
  have hp := p.isLt
  by_cases h : 0 ≤ k ∧ k < n
  · rw [dif_pos h]
    constructor
    · intro e
      have e : (⟨k.toNat, by omega⟩ : Fin n) = p := by injection e
      have := congrArg Fin.val e
      simp only at this
      omega
    · intro e
      refine congrArg Except.ok (Fin.ext ?_)
      simp only
      omega
  · rw [dif_neg h]
    by_cases h' : -n ≤ k ∧ k < 0
    · rw [dif_pos h']
      constructor
      · intro e
        have e : (⟨(k + n).toNat, by omega⟩ : Fin n) = p := by injection e
        have := congrArg Fin.val e
        simp only at this
        omega
      · intro e
        refine congrArg Except.ok (Fin.ext ?_)
        simp only
        omega
    · rw [dif_neg h']
      constructor
      · intro e; cases e
      · intro e; omega

theorem axisIndex_returns {n : Nat} {k : Int} (h1 : -n ≤ k) (h2 : k < n) : ∃ p, axisIndex n k = .ok p := by
  unfold axisIndex
  by_cases h : 0 ≤ k ∧ k < n
  · rw [dif_pos h]; exact ⟨_, rfl⟩
  · rw [dif_neg h, dif_pos (by omega)]; exact ⟨_, rfl⟩

theorem fillWindow_ok {data : Image r c α} {x1 y1 : Int} : ∀ {l : List (Nat × Nat)} {w w' : Image r c α}, fillWindow data x1 y1 l w = .ok w' →
    (∀ ij ∈ l, (-r ≤ x1 + ij.1 - 1 ∧ x1 + ij.1 - 1 < r) ∧ -c ≤ y1 + ij.2 - 1 ∧ y1 + ij.2 - 1 < c) ∧
    ∀ (p : Fin r) (q : Fin c), ((∃ ij ∈ l, ((p : Int) = x1 + ij.1 - 1 ∨ (p : Int) = x1 + ij.1 - 1 + r) ∧ ((q : Int) = y1 + ij.2 - 1 ∨ (q : Int) = y1 + ij.2 - 1 + c)) →
        w' p q = data p q) ∧
      ((¬ ∃ ij ∈ l, ((p : Int) = x1 + ij.1 - 1 ∨ (p : Int) = x1 + ij.1 - 1 + r) ∧ ((q : Int) = y1 + ij.2 - 1 ∨ (q : Int) = y1 + ij.2 - 1 + c)) →
        w' p q = w p q)
  | [], w, w', h => by
    cases h
    exact ⟨by simp, fun p q => ⟨by simp, fun _ => rfl⟩⟩
  | (i, j) :: l, w, w', h => by
    unfold fillWindow at h
    obtain ⟨p0, hp0, h⟩ := bind_ok.1 h
    obtain ⟨q0, hq0, h⟩ := bind_ok.1 h
    obtain ⟨ep, bp⟩ := axisIndex_ok.1 hp0
    obtain ⟨eq, bq⟩ := axisIndex_ok.1 hq0
    have here : ∀ (p : Fin r) (q : Fin c), (((p : Int) = x1 + i - 1 ∨ (p : Int) = x1 + i - 1 + r) ∧ ((q : Int) = y1 + j - 1 ∨ (q : Int) = y1 + j - 1 + c)) ↔ p = p0 ∧ q = q0 := by
      intro p q
      clear h
      have := p.isLt; have := q.isLt; have := p0.isLt; have := q0.isLt
      rw [Fin.ext_iff, Fin.ext_iff]
      omega
    obtain ⟨h1, h2⟩ := fillWindow_ok h
    refine ⟨?_, fun p q => ?_⟩
    · intro ij hij
      rcases List.mem_cons.1 hij with e | e
      · rw [e]; exact ⟨bp, bq⟩
      · exact h1 ij e
    · obtain ⟨g1, g2⟩ := h2 p q
      by_cases ht : ∃ ij ∈ l, ((p : Int) = x1 + ij.1 - 1 ∨ (p : Int) = x1 + ij.1 - 1 + r) ∧ ((q : Int) = y1 + ij.2 - 1 ∨ (q : Int) = y1 + ij.2 - 1 + c)
      · refine ⟨fun _ => g1 ht, fun hn => ?_⟩
        obtain ⟨ij, hij, e⟩ := ht
        exact absurd ⟨ij, List.mem_cons_of_mem _ hij, e⟩ hn
      · have g2 := g2 ht
        by_cases hh : p = p0 ∧ q = q0
        · rw [if_pos hh] at g2
          refine ⟨fun _ => by rw [g2, hh.1, hh.2], fun hn => absurd ⟨(i, j), List.mem_cons_self, (here p q).2 hh⟩ hn⟩
        · rw [if_neg hh] at g2
          refine ⟨?_, fun _ => g2⟩
          rintro ⟨ij, hij, e⟩
          rcases List.mem_cons.1 hij with e' | e'
          · rw [e'] at e; exact absurd ((here p q).1 e) hh
          · exact absurd ⟨ij, e', e⟩ ht

theorem fillWindow_returns {data : Image r c α} {x1 y1 : Int} : ∀ {l : List (Nat × Nat)} (w : Image r c α),
    (∀ ij ∈ l, (-r ≤ x1 + ij.1 - 1 ∧ x1 + ij.1 - 1 < r) ∧ -c ≤ y1 + ij.2 - 1 ∧ y1 + ij.2 - 1 < c) → ∃ w', fillWindow data x1 y1 l w = .ok w'
  | [], w, _ => ⟨w, rfl⟩
  | (i, j) :: l, w, h => by
    obtain ⟨⟨h1, h2⟩, h3, h4⟩ := h (i, j) List.mem_cons_self
    obtain ⟨p, hp⟩ := axisIndex_returns h1 h2
    obtain ⟨q, hq⟩ := axisIndex_returns h3 h4
    obtain ⟨w', hw⟩ := fillWindow_returns (fun p' q' => if p' = p ∧ q' = q then data p q else w p' q') fun ij hij => h ij (List.mem_cons_of_mem _ hij)
    refine ⟨w', ?_⟩
    unfold fillWindow
    rw [hp, hq]
    exact hw

theorem mem_pairs {m k : Nat} {ij : Nat × Nat} : ij ∈ ((List.range m).flatMap fun i => (List.range k).map fun j => (i, j)) ↔ ij.1 < m ∧ ij.2 < k := by
  obtain ⟨i, j⟩ := ij
  simp

/-- **C92 (window and rest make up the picture).** Whatever `Scan` returns: every pixel is either in the window, with its value, and zero in the rest; or zero in the
window, and in the rest with its value. The two add up to the picture. -/
theorem C92_split {data w m : Image r c α} {size : Nat × Nat} {centre : Int × Int} (h : scan data size centre = .ok (w, m)) (p : Fin r) (q : Fin c) :
    ((w p q = data p q ∧ m p q = 0) ∨ (w p q = 0 ∧ m p q = data p q)) ∧ w p q + m p q = data p q := by
  unfold scan at h
  simp only at h
  obtain ⟨w', hw, h⟩ := bind_ok.1 h
  rw [pure_ok] at h
  obtain ⟨rfl, rfl⟩ := Prod.mk.inj h
  obtain ⟨-, h2⟩ := fillWindow_ok hw
  obtain ⟨g1, g2⟩ := h2 p q
  have key : (w' p q = data p q ∧ (if data p q = w' p q then 0 else data p q) = 0) ∨ (w' p q = 0 ∧ (if data p q = w' p q then 0 else data p q) = data p q) := by
    by_cases hc : w' p q = data p q
    · exact Or.inl ⟨hc, if_pos hc.symm⟩
    · right
      refine ⟨?_, if_neg fun e => hc e.symm⟩
      by_contra h0
      apply hc
      apply g1
      by_contra hn
      exact h0 (g2 hn)
  refine ⟨key, ?_⟩
  show w' p q + (if data p q = w' p q then 0 else data p q) = data p q
  rcases key with ⟨a, b⟩ | ⟨a, b⟩
  · rw [b, a, add_zero]
  · rw [b, a, zero_add]

/-- **C92 (the window is a rectangle).** Where the rectangle of `size` which starts half the size, and one more, before the centre lies inside the picture, `Scan` returns;
the window holds the pixels of the rectangle, and the rest holds the others. -/
theorem C92_window {data : Image r c α} {size : Nat × Nat} {centre : Int × Int}
    (hf : Fits r c (centre.2 - (size.2 / 2 : Nat) - 1) (centre.1 - (size.1 / 2 : Nat) - 1) size.2 size.1) :
    ∃ w m, scan data size centre = .ok (w, m) ∧ ∀ p q,
      (InRect (centre.2 - (size.2 / 2 : Nat) - 1) (centre.1 - (size.1 / 2 : Nat) - 1) size.2 size.1 p q → w p q = data p q ∧ m p q = 0) ∧
      (¬ InRect (centre.2 - (size.2 / 2 : Nat) - 1) (centre.1 - (size.1 / 2 : Nat) - 1) size.2 size.1 p q → w p q = 0 ∧ m p q = data p q) := by
  obtain ⟨f1, f2, f3, f4⟩ := hf
  obtain ⟨w, hw⟩ := fillWindow_returns (data := data) (x1 := centre.2 - (size.2 / 2 : Nat)) (y1 := centre.1 - (size.1 / 2 : Nat))
    (l := (List.range size.2).flatMap fun i => (List.range size.1).map fun j => (i, j)) (fun _ _ => 0) (by
      intro ij hij
      obtain ⟨a, b⟩ := mem_pairs.1 hij
      omega)
  refine ⟨w, fun p q => if data p q = w p q then 0 else data p q, bind_ok.2 ⟨w, hw, rfl⟩, fun p q => ?_⟩
  obtain ⟨-, h2⟩ := fillWindow_ok hw
  obtain ⟨g1, g2⟩ := h2 p q
  have hp := p.isLt
  have hq := q.isLt
  constructor
  · rintro ⟨⟨a1, a2⟩, a3, a4⟩
    have e : w p q = data p q := by
      refine g1 ⟨(((p : Int) - (centre.2 - (size.2 / 2 : Nat) - 1)).toNat, ((q : Int) - (centre.1 - (size.1 / 2 : Nat) - 1)).toNat), mem_pairs.2 ⟨?_, ?_⟩, Or.inl ?_, Or.inl ?_⟩ <;>
        simp only <;> omega
    exact ⟨e, if_pos e.symm⟩
  · intro hn
    have e : w p q = 0 := by
      refine g2 ?_
      rintro ⟨ij, hij, e1, e2⟩
      obtain ⟨a, b⟩ := mem_pairs.1 hij
      apply hn
      unfold InRect
      omega
    refine ⟨e, ?_⟩
    by_cases h0 : data p q = w p q
    · simp only [if_pos h0]; rw [h0, e]
    · simp only [if_neg h0]

/-- **C92 (when it fails).** For a window which is not empty `Scan` fails exactly when a row or column lies beyond the picture by more than Python's negative indices allow. -/
theorem C92_returns {data : Image r c α} {size : Nat × Nat} {centre : Int × Int} (h1 : 0 < size.1) (h2 : 0 < size.2) :
    (∃ out, scan data size centre = .ok out) ↔
      (-r ≤ centre.2 - (size.2 / 2 : Nat) - 1 ∧ centre.2 - (size.2 / 2 : Nat) - 1 + size.2 ≤ r) ∧
      -c ≤ centre.1 - (size.1 / 2 : Nat) - 1 ∧ centre.1 - (size.1 / 2 : Nat) - 1 + size.1 ≤ c := by
  constructor
  · rintro ⟨out, h⟩
    unfold scan at h
    simp only at h
    obtain ⟨w, hw, -⟩ := bind_ok.1 h
    obtain ⟨hb, -⟩ := fillWindow_ok hw
    have b1 := hb (0, 0) (mem_pairs.2 ⟨h2, h1⟩)
    have b2 := hb (size.2 - 1, size.1 - 1) (mem_pairs.2 ⟨by simp only; omega, by simp only; omega⟩)
    simp only at b1 b2
    omega
  · rintro ⟨⟨a1, a2⟩, a3, a4⟩
    obtain ⟨w, hw⟩ := fillWindow_returns (data := data) (x1 := centre.2 - (size.2 / 2 : Nat)) (y1 := centre.1 - (size.1 / 2 : Nat))
      (l := (List.range size.2).flatMap fun i => (List.range size.1).map fun j => (i, j)) (fun _ _ => 0) (by
        intro ij hij
        obtain ⟨a, b⟩ := mem_pairs.1 hij
        omega)
    exact ⟨_, bind_ok.2 ⟨w, hw, rfl⟩⟩

/-- **C92 is false of the code (the window is not around the centre).** The window of one pixel at a centre inside the picture is the pixel before it in the row and the
column before; the pixel of the centre itself is not in the window, if it is not zero. -/
theorem C92_off_centre {data : Image r c α} {p : Fin r} {q : Fin c} (hp : 0 < p.val) (hq : 0 < q.val) (hd : data p q ≠ 0) :
    ∃ w m, scan data (1, 1) ((q : Int), (p : Int)) = .ok (w, m) ∧ w p q ≠ data p q ∧
      w ⟨p.val - 1, by omega⟩ ⟨q.val - 1, by omega⟩ = data ⟨p.val - 1, by omega⟩ ⟨q.val - 1, by omega⟩ := by
  have h1 := p.isLt
  have h2 := q.isLt
  obtain ⟨w, m, h, hs⟩ := C92_window (data := data) (size := (1, 1)) (centre := ((q : Int), (p : Int))) (by
    refine ⟨?_, ?_, ?_, ?_⟩ <;> simp only <;> omega)
  refine ⟨w, m, h, ?_, ((hs _ _).1 ?_).1⟩
  · rw [((hs p q).2 (by unfold InRect; simp only; omega)).1]; exact hd.symm
  · unfold InRect; simp only; omega

/-- **C92 is false of the code (windows at the edge).** With the centre on the first row and column, the window of one pixel is the pixel in the opposite corner. -/
theorem C92_wraps {data : Image (r + 1) (c + 1) α} :
    ∃ w m, scan data (1, 1) (0, 0) = .ok (w, m) ∧ w (Fin.last r) (Fin.last c) = data (Fin.last r) (Fin.last c) ∧
      ∀ p q, ¬ (p = Fin.last r ∧ q = Fin.last c) → w p q = 0 := by
  obtain ⟨⟨w, m⟩, h⟩ := (C92_returns (data := data) (size := (1, 1)) (centre := (0, 0)) Nat.one_pos Nat.one_pos).2 (by simp; omega)
  refine ⟨w, m, h, ?_⟩
  unfold scan at h
  simp only at h
  obtain ⟨w', hw, h⟩ := bind_ok.1 h
  rw [pure_ok] at h
  obtain ⟨rfl, rfl⟩ := Prod.mk.inj h
  obtain ⟨-, h2⟩ := fillWindow_ok hw
  refine ⟨(h2 _ _).1 ⟨(0, 0), mem_pairs.2 ⟨Nat.one_pos, Nat.one_pos⟩, ?_, ?_⟩, fun p q hn => (h2 _ _).2 ?_⟩
  · right; simp
  · right; simp
  · rintro ⟨⟨i, j⟩, hij, e1, e2⟩
    obtain ⟨a, b⟩ := mem_pairs.1 hij
    simp only at a b e1 e2
    apply hn
    have := p.isLt; have := q.isLt
    rw [Fin.ext_iff, Fin.ext_iff, Fin.val_last, Fin.val_last]
    omega

/-! ### The uncertainty of the average -/

theorem count_axis {n : Nat} {a : Int} {k : Nat} (h0 : 0 ≤ a) (h1 : a + k ≤ n) : (∑ p : Fin n, if a ≤ (p : Int) ∧ (p : Int) < a + k then 1 else 0 : Nat) = k := by
  obtain ⟨b, rfl⟩ := Int.eq_ofNat_of_zero_le h0
  obtain ⟨t, ht⟩ : ∃ t, n = b + (k + t) := ⟨n - b - k, by omega⟩
  subst ht
  have e := Fin.sum_univ_eq_sum_range (fun i : Nat => if (b : Int) ≤ (i : Int) ∧ (i : Int) < b + k then (1 : Nat) else 0) (b + (k + t))
  rw [e, Finset.sum_range_add, Finset.sum_range_add]
  have s1 : ∑ x ∈ Finset.range b, (if (b : Int) ≤ (x : Int) ∧ (x : Int) < b + k then (1 : Nat) else 0) = 0 :=
    Finset.sum_eq_zero fun x hx => if_neg (by have := Finset.mem_range.1 hx; omega)
  have s2 : ∑ x ∈ Finset.range k, (if (b : Int) ≤ ((b + x : Nat) : Int) ∧ ((b + x : Nat) : Int) < b + k then (1 : Nat) else 0) = k := by
    rw [Finset.sum_congr rfl fun x hx => if_pos (by have := Finset.mem_range.1 hx; omega)]
    simp
  have s3 : ∑ x ∈ Finset.range t, (if (b : Int) ≤ ((b + (k + x) : Nat) : Int) ∧ ((b + (k + x) : Nat) : Int) < b + k then (1 : Nat) else 0) = 0 :=
    Finset.sum_eq_zero fun x hx => if_neg (by omega)
  rw [s1, s2, s3]
  omega

/-- A rectangle inside the picture has as many pixels as it should. -/
theorem count_rect {top left : Int} {height width : Nat} (hf : Fits r c top left height width) :
    (∑ p : Fin r, ∑ q : Fin c, if InRect top left height width p q then 1 else 0 : Nat) = height * width := by
  obtain ⟨f1, f2, f3, f4⟩ := hf
  have e : ∀ p : Fin r, (∑ q : Fin c, if InRect top left height width p q then 1 else 0 : Nat) = (if top ≤ (p : Int) ∧ (p : Int) < top + height then 1 else 0) * width := by
    intro p
    by_cases hp : top ≤ (p : Int) ∧ (p : Int) < top + height
    · rw [if_pos hp, one_mul]
      refine Eq.trans (Finset.sum_congr rfl fun q _ => ?_) (count_axis f3 f4)
      unfold InRect
      simp only [hp, true_and, and_self]
    · rw [if_neg hp, zero_mul]
      exact Finset.sum_eq_zero fun q _ => if_neg fun h => hp h.1
  rw [Finset.sum_congr rfl fun p _ => e p, ← Finset.sum_mul, count_axis f1 f2]

variable [IsStrictOrderedRing α]

theorem sqrt_zero {sqrt : α → Py α} (hs : IsSqrt sqrt) {v : α} (h : sqrt 0 = .ok v) : v = 0 := by
  have := (hs _ _ h).2
  exact mul_self_eq_zero.1 this

/-- **C92 (the uncertainty of the average).** The uncertainty of the window, with or without the structured part: the independent parts of `n` pixels as for an average
of independent values, the common part as the mean of those which are not zero; and `2 / n` times the sum of the rows and columns of the pixels, for "structured". -/
theorem C92_average {sqrt : α → Py α} (hs : IsSqrt sqrt) {window : Fields r c α} {param : α} {k : Nat} {structured : Bool} {v : α}
    (h : windowUncertainty sqrt window param k structured = .ok v) :
    0 ≤ v ∧ v ^ 2 = (1 - param) * ((∑ p, ∑ q, window.independent p q ^ 2) / (k : α) ^ 2)
      + param * ((∑ p, ∑ q, window.common p q) / ((∑ p, ∑ q, if window.common p q = 0 then 0 else 1 : Nat) : α)) ^ 2
      + (if structured then 2 / (k : α) * ((∑ p : Fin r, ∑ q : Fin c, if window.independent p q = 0 then 0 else p.val + q.val : Nat) : α) else 0) := by
  unfold windowUncertainty at h
  obtain ⟨idv, h1, h⟩ := bind_ok.1 h
  obtain ⟨cm, h2, h⟩ := bind_ok.1 h
  obtain ⟨str, h3, h⟩ := bind_ok.1 h
  obtain ⟨-, e1⟩ := hs _ _ h1
  obtain ⟨-, e3⟩ := hs _ _ h3
  obtain ⟨hv, e⟩ := hs _ _ h
  have e2 : cm = (∑ p, ∑ q, window.common p q) / ((∑ p, ∑ q, if window.common p q = 0 then 0 else 1 : Nat) : α) := by
    unfold meanNonzero at h2
    simp only at h2
    by_cases hc : (∑ p, ∑ q, if window.common p q = 0 then 0 else 1 : Nat) = 0
    · rw [if_pos hc] at h2; cases h2
    · rw [if_neg hc] at h2
      have h2 := Except.ok.inj h2
      rw [← h2]
      congr 1
      refine Finset.sum_congr rfl fun p _ => Finset.sum_congr rfl fun q _ => ?_
      by_cases h0 : window.common p q = 0
      · rw [if_pos h0, h0]
      · rw [if_neg h0]
  have s1 : (∑ p, ∑ q, if window.independent p q = 0 then 0 else window.independent p q ^ 2) = ∑ p, ∑ q, window.independent p q ^ 2 := by
    refine Finset.sum_congr rfl fun p _ => Finset.sum_congr rfl fun q _ => ?_
    by_cases h0 : window.independent p q = 0
    · rw [if_pos h0, h0]; ring
    · rw [if_neg h0]
  have s3 : (∑ p : Fin r, ∑ q : Fin c, if window.independent p q ^ 2 = 0 then 0 else p.val + q.val : Nat) =
      ∑ p : Fin r, ∑ q : Fin c, if window.independent p q = 0 then 0 else p.val + q.val := by
    refine Finset.sum_congr rfl fun p _ => Finset.sum_congr rfl fun q _ => ?_
    simp only [pow_eq_zero_iff (two_ne_zero)]
  rw [s1] at e1
  rw [s3] at e3
  refine ⟨hv, ?_⟩
  rw [← e2, pow_two v, e, pow_two idv, e1, pow_two str, e3]
  cases structured
  · simp only [Bool.false_eq_true, if_false, zero_mul]
  · simp only [if_true]; ring

/-- The window of the picture which the lecture draws. -/
theorem picture_parts {sqrt : α → Py α} {u : Fields r c α} {param : α} {size : Nat} {x y : Int} (h0 : 0 < size)
    (hf : Fits r c (y - (size / 2 : Nat) - 1) (x - (size / 2 : Nat) - 1) size size) :
    ∃ window background : Fields r c α,
      picture sqrt u param size x y = .ok (fun p q => combinedPixels sqrt background param false p q >>= fun a =>
        (if background.independent p q = 0 then windowUncertainty sqrt window param (size ^ 2) false else .ok 0) >>= fun b => pure (a + b)) ∧
      ∀ p q, (InRect (y - (size / 2 : Nat) - 1) (x - (size / 2 : Nat) - 1) size size p q →
          (window.independent p q = u.independent p q ∧ window.common p q = u.common p q) ∧ background.independent p q = 0 ∧ background.common p q = 0) ∧
        (¬ InRect (y - (size / 2 : Nat) - 1) (x - (size / 2 : Nat) - 1) size size p q →
          (window.independent p q = 0 ∧ window.common p q = 0) ∧ background.independent p q = u.independent p q ∧ background.common p q = u.common p q) := by
  obtain ⟨wi, bi, hi, ri⟩ := C92_window (data := u.independent) (size := (size, size)) (centre := (x, y)) hf
  obtain ⟨wc, bc, hc, rc⟩ := C92_window (data := u.common) (size := (size, size)) (centre := (x, y)) hf
  obtain ⟨ws, bs, hs, -⟩ := C92_window (data := u.structured) (size := (size, size)) (centre := (x, y)) hf
  refine ⟨⟨wi, wc, ws⟩, ⟨bi, bc, bs⟩, ?_, fun p q => ⟨fun h => ⟨⟨((ri p q).1 h).1, ((rc p q).1 h).1⟩, ((ri p q).1 h).2, ((rc p q).1 h).2⟩,
    fun h => ⟨⟨((ri p q).2 h).1, ((rc p q).2 h).1⟩, ((ri p q).2 h).2, ((rc p q).2 h).2⟩⟩⟩
  have hn : ¬ size ^ 2 = 0 := by positivity
  have hw : combinedDa sqrt (⟨wi, wc, ws⟩ : Fields r c α) ⟨bi, bc, bs⟩ param size true false =
      .ok fun p q => if bi p q = 0 then windowUncertainty sqrt ⟨wi, wc, ws⟩ param (size ^ 2) false else .ok 0 := by
    unfold combinedDa
    simp only [if_true, if_neg hn]
  refine bind_ok.2 ⟨_, hi, bind_ok.2 ⟨_, hc, bind_ok.2 ⟨_, hs, bind_ok.2 ⟨_, rfl, bind_ok.2 ⟨_, hw, rfl⟩⟩⟩⟩⟩

/-- **C92 (the picture).** With a window inside the picture, independent uncertainties which are nowhere zero and common ones which are not zero in the window: every
pixel of the window shows the uncertainty of the average of the window (independent parts added in quadrature and divided by the number of pixels, common parts averaged),
and every other pixel its own uncertainty. -/
theorem C92_picture {sqrt : α → Py α} (hs : IsSqrt sqrt) {u : Fields r c α} {param : α} {size : Nat} {x y : Int} (h0 : 0 < size)
    (hf : Fits r c (y - (size / 2 : Nat) - 1) (x - (size / 2 : Nat) - 1) size size) (hi : ∀ p q, u.independent p q ≠ 0)
    (hc : ∀ p q, InRect (y - (size / 2 : Nat) - 1) (x - (size / 2 : Nat) - 1) size size p q → u.common p q ≠ 0)
    {pic : Image r c (Py α)} (h : picture sqrt u param size x y = .ok pic) {p : Fin r} {q : Fin c} {v : α} (hv : pic p q = .ok v) :
    0 ≤ v ∧ v ^ 2 = if InRect (y - (size / 2 : Nat) - 1) (x - (size / 2 : Nat) - 1) size size p q then
        (1 - param) * ((∑ p', ∑ q', if InRect (y - (size / 2 : Nat) - 1) (x - (size / 2 : Nat) - 1) size size p' q' then u.independent p' q' ^ 2 else 0) / ((size * size : Nat) : α) ^ 2)
          + param * ((∑ p', ∑ q', if InRect (y - (size / 2 : Nat) - 1) (x - (size / 2 : Nat) - 1) size size p' q' then u.common p' q' else 0) / ((size * size : Nat) : α)) ^ 2
      else (1 - param) * u.independent p q ^ 2 + param * u.common p q ^ 2 := by
  obtain ⟨W, B, e, hr⟩ := picture_parts (sqrt := sqrt) (u := u) (param := param) h0 hf
  rw [h] at e
  have e := Except.ok.inj e
  subst e
  obtain ⟨a, ha, hv⟩ := bind_ok.1 hv
  obtain ⟨b, hb, hv⟩ := bind_ok.1 hv
  rw [pure_ok] at hv
  subst hv
  by_cases hp : InRect (y - (size / 2 : Nat) - 1) (x - (size / 2 : Nat) - 1) size size p q
  · rw [if_pos hp]
    obtain ⟨-, b1, b2⟩ := (hr p q).1 hp
    have ha0 : a = 0 := by
      unfold combinedPixels at ha
      rw [b1, b2] at ha
      refine sqrt_zero hs (ha ▸ ?_)
      congr 1
      simp
    rw [if_pos b1] at hb
    obtain ⟨g1, g2⟩ := C92_average hs hb
    rw [ha0, zero_add]
    refine ⟨g1, ?_⟩
    rw [g2]
    have s1 : ∑ p', ∑ q', W.independent p' q' ^ 2 = ∑ p', ∑ q', if InRect (y - (size / 2 : Nat) - 1) (x - (size / 2 : Nat) - 1) size size p' q' then u.independent p' q' ^ 2 else 0 := by
      refine Finset.sum_congr rfl fun p' _ => Finset.sum_congr rfl fun q' _ => ?_
      split_ifs with hin
      · rw [((hr p' q').1 hin).1.1]
      · rw [((hr p' q').2 hin).1.1]; ring
    have s2 : ∑ p', ∑ q', W.common p' q' = ∑ p', ∑ q', if InRect (y - (size / 2 : Nat) - 1) (x - (size / 2 : Nat) - 1) size size p' q' then u.common p' q' else 0 := by
      refine Finset.sum_congr rfl fun p' _ => Finset.sum_congr rfl fun q' _ => ?_
      split_ifs with hin
      · rw [((hr p' q').1 hin).1.2]
      · rw [((hr p' q').2 hin).1.2]
    have s3 : (∑ p', ∑ q', if W.common p' q' = 0 then 0 else 1 : Nat) = size * size := by
      rw [← count_rect hf]
      refine Finset.sum_congr rfl fun p' _ => Finset.sum_congr rfl fun q' _ => ?_
      by_cases hin : InRect (y - (size / 2 : Nat) - 1) (x - (size / 2 : Nat) - 1) size size p' q'
      · rw [if_pos hin, if_neg (by rw [((hr p' q').1 hin).1.2]; exact hc p' q' hin)]
      · rw [if_neg hin, if_pos ((hr p' q').2 hin).1.2]
    rw [s1, s2, s3, pow_two size]
    simp
  · rw [if_neg hp]
    obtain ⟨-, b1, b2⟩ := (hr p q).2 hp
    rw [if_neg (by rw [b1]; exact hi p q)] at hb
    have hb := Except.ok.inj hb
    unfold combinedPixels at ha
    obtain ⟨g1, g2⟩ := hs _ _ ha
    rw [← hb, add_zero]
    refine ⟨g1, ?_⟩
    rw [pow_two, g2, b1, b2]
    simp

/-- **C92 (uncertainties which are the same everywhere).** The average over `size²` pixels has the independent uncertainty divided by the root of the number of pixels
(that is, by `size`), and the common uncertainty unchanged. -/
theorem C92_constant {sqrt : α → Py α} (hs : IsSqrt sqrt) {u : Fields r c α} {ui uc param : α} (hu : ∀ p q, u.independent p q = ui) (hk : ∀ p q, u.common p q = uc)
    (hi : ui ≠ 0) (hc : uc ≠ 0) {size : Nat} {x y : Int} (h0 : 0 < size) (hf : Fits r c (y - (size / 2 : Nat) - 1) (x - (size / 2 : Nat) - 1) size size)
    {pic : Image r c (Py α)} (h : picture sqrt u param size x y = .ok pic) {p : Fin r} {q : Fin c}
    (hp : InRect (y - (size / 2 : Nat) - 1) (x - (size / 2 : Nat) - 1) size size p q) {v : α} (hv : pic p q = .ok v) :
    0 ≤ v ∧ v ^ 2 = (1 - param) * (ui / size) ^ 2 + param * uc ^ 2 := by
  obtain ⟨g1, g2⟩ := C92_picture hs h0 hf (fun p q => by rw [hu]; exact hi) (fun p q _ => by rw [hk]; exact hc) h hv
  refine ⟨g1, ?_⟩
  rw [g2, if_pos hp]
  have key : ∀ z : α, (∑ p' : Fin r, ∑ q' : Fin c, if InRect (y - (size / 2 : Nat) - 1) (x - (size / 2 : Nat) - 1) size size p' q' then z else 0) = ((size * size : Nat) : α) * z := by
    intro z
    rw [← count_rect hf, Nat.cast_sum, Finset.sum_mul]
    refine Finset.sum_congr rfl fun p' _ => ?_
    rw [Nat.cast_sum, Finset.sum_mul]
    refine Finset.sum_congr rfl fun q' _ => ?_
    split_ifs <;> simp
  simp only [hu, hk, key]
  have hz : (size : α) ≠ 0 := by exact_mod_cast h0.ne'
  push_cast
  field_simp

/-- **C92 (the picture is drawn).** Over the real numbers, with a share between 0 and 1 and a common uncertainty which is not zero somewhere in the window, every pixel has a number. -/
theorem C92_drawn {u : Fields r c ℝ} {param : ℝ} (hp0 : 0 ≤ param) (hp1 : param ≤ 1) {size : Nat} {x y : Int} (h0 : 0 < size)
    (hf : Fits r c (y - (size / 2 : Nat) - 1) (x - (size / 2 : Nat) - 1) size size)
    (hc : ∃ p q, InRect (y - (size / 2 : Nat) - 1) (x - (size / 2 : Nat) - 1) size size p q ∧ u.common p q ≠ 0) :
    ∃ pic, picture realSqrt u param size x y = .ok pic ∧ ∀ p q, ∃ v, pic p q = .ok v := by
  obtain ⟨W, B, e, hr⟩ := picture_parts (sqrt := realSqrt) (u := u) (param := param) h0 hf
  have hsq : ∀ z : ℝ, 0 ≤ z → ∃ v, realSqrt z = .ok v := fun z hz => by unfold realSqrt; rw [if_neg (not_lt.2 hz)]; exact ⟨_, rfl⟩
  have h1p : 0 ≤ 1 - param := by linarith
  refine ⟨_, e, fun p q => ?_⟩
  obtain ⟨a, ha⟩ : ∃ a, combinedPixels realSqrt B param false p q = .ok a := by
    unfold combinedPixels
    refine hsq _ ?_
    simp only [Bool.false_eq_true, if_false, zero_mul, add_zero]
    positivity
  obtain ⟨b, hb⟩ : ∃ b, windowUncertainty realSqrt W param (size ^ 2) false = .ok b := by
    obtain ⟨idv, h1⟩ := hsq ((∑ p, ∑ q, if W.independent p q = 0 then 0 else W.independent p q ^ 2) / ((size ^ 2 : Nat) : ℝ) ^ 2) (by
      refine div_nonneg (Finset.sum_nonneg fun p _ => Finset.sum_nonneg fun q _ => ?_) (by positivity)
      split_ifs <;> positivity)
    obtain ⟨str, h3⟩ := hsq (1 / ((size ^ 2 : Nat) : ℝ) * 2 * ((∑ p : Fin r, ∑ q : Fin c, if W.independent p q ^ 2 = 0 then 0 else p.val + q.val : Nat) : ℝ)) (by positivity)
    have hcount : ¬ (∑ p, ∑ q, if W.common p q = 0 then 0 else 1 : Nat) = 0 := by
      obtain ⟨p', q', hin, hne⟩ := hc
      intro hz
      have z1 := (Finset.sum_eq_zero_iff.1 hz) p' (Finset.mem_univ _)
      have z2 := (Finset.sum_eq_zero_iff.1 z1) q' (Finset.mem_univ _)
      rw [if_neg (by rw [((hr p' q').1 hin).1.2]; exact hne)] at z2
      omega
    obtain ⟨v, hv⟩ := hsq ((1 - param) * idv ^ 2 + param * ((∑ p, ∑ q, if W.common p q = 0 then 0 else W.common p q) / ((∑ p, ∑ q, if W.common p q = 0 then 0 else 1 : Nat) : ℝ)) ^ 2
      + (if false then 1 else 0) * str ^ 2) (by simp only [Bool.false_eq_true, if_false, zero_mul, add_zero]; positivity)
    refine ⟨v, ?_⟩
    unfold windowUncertainty
    refine bind_ok.2 ⟨idv, h1, bind_ok.2 ⟨_, (if_neg hcount : meanNonzero W.common = _), bind_ok.2 ⟨str, h3, hv⟩⟩⟩
  by_cases hz : B.independent p q = 0
  · exact ⟨a + b, bind_ok.2 ⟨a, ha, bind_ok.2 ⟨b, by rw [if_pos hz]; exact hb, rfl⟩⟩⟩
  · exact ⟨a + 0, bind_ok.2 ⟨a, ha, bind_ok.2 ⟨0, by rw [if_neg hz], rfl⟩⟩⟩

/-- **C92 is false of the code (pixels without independent uncertainty).** A pixel outside the window whose independent uncertainty is zero shows its own uncertainty plus
the one of the window. -/
theorem C92_zero_pixels {sqrt : α → Py α} {u : Fields r c α} {param : α} {size : Nat} {x y : Int} (h0 : 0 < size)
    (hf : Fits r c (y - (size / 2 : Nat) - 1) (x - (size / 2 : Nat) - 1) size size)
    {pic : Image r c (Py α)} (h : picture sqrt u param size x y = .ok pic) (hs : IsSqrt sqrt) {p p' : Fin r} {q q' : Fin c}
    (hp : ¬ InRect (y - (size / 2 : Nat) - 1) (x - (size / 2 : Nat) - 1) size size p q) (hz : u.independent p q = 0)
    (hp' : InRect (y - (size / 2 : Nat) - 1) (x - (size / 2 : Nat) - 1) size size p' q') {v w : α} (hv : pic p q = .ok v) (hw : pic p' q' = .ok w) :
    ∃ own, 0 ≤ own ∧ own ^ 2 = param * u.common p q ^ 2 ∧ v = own + w := by
  obtain ⟨W, B, e, hr⟩ := picture_parts (sqrt := sqrt) (u := u) (param := param) h0 hf
  rw [h] at e
  have e := Except.ok.inj e
  subst e
  obtain ⟨a, ha, hv⟩ := bind_ok.1 hv
  obtain ⟨b, hb, hv⟩ := bind_ok.1 hv
  obtain ⟨a', ha', hw⟩ := bind_ok.1 hw
  obtain ⟨b', hb', hw⟩ := bind_ok.1 hw
  rw [pure_ok] at hv hw
  obtain ⟨-, b1, b2⟩ := (hr p q).2 hp
  obtain ⟨-, b1', b2'⟩ := (hr p' q').1 hp'
  rw [if_pos (b1.trans hz)] at hb
  rw [if_pos b1', hb] at hb'
  have hbb := Except.ok.inj hb'
  have ha0 : a' = 0 := by
    unfold combinedPixels at ha'
    rw [b1', b2'] at ha'
    refine sqrt_zero hs (ha' ▸ ?_)
    congr 1
    simp
  unfold combinedPixels at ha
  obtain ⟨g1, g2⟩ := hs _ _ ha
  refine ⟨a, g1, ?_, ?_⟩
  · rw [pow_two, g2, b1, b2, hz]
    simp
  · rw [← hv, ← hw, ha0, hbb, zero_add]

/-- **C92 is false of the code (structured uncertainties).** With `ShowStructured` the uncertainty of the window does not depend on the structured uncertainties at all; what
is added depends on where in the picture the window lies. -/
theorem C92_structured_not_used {sqrt : α → Py α} (hs : IsSqrt sqrt) {window : Fields r c α} {other : Image r c α} {param : α} {k : Nat} {v v0 : α}
    (h : windowUncertainty sqrt window param k true = .ok v) (h0 : windowUncertainty sqrt window param k false = .ok v0) :
    windowUncertainty sqrt { window with structured := other } param k true = .ok v ∧
    v ^ 2 = v0 ^ 2 + 2 / (k : α) * ((∑ p : Fin r, ∑ q : Fin c, if window.independent p q = 0 then 0 else p.val + q.val : Nat) : α) := by
  refine ⟨h, ?_⟩
  rw [(C92_average hs h).2, (C92_average hs h0).2]
  simp

/-! ### Concrete cases -/

/-- A picture of three rows and three columns, with a window of one pixel. -/
def sampleFields : Fields 3 3 ℚ := ⟨fun p q => if p = 2 ∧ q = 2 then 0 else 3, fun _ _ => 4, fun _ _ => 1⟩

/-- The window fits; the window pixel and an outer pixel have their value, the pixel without independent uncertainty the sum. -/
example : Fits 3 3 ((1 : Int) - (1 / 2 : Nat) - 1) ((1 : Int) - (1 / 2 : Nat) - 1) 1 1 ∧
    (picture Fixture.ratSqrt sampleFields 0 1 1 1).map (fun pic => (pic 0 0, pic 1 1, pic 2 2)) = .ok (.ok 3, .ok 3, .ok 3) := by
  constructor
  · unfold Fits; decide
  · decide +kernel

/-- The mean of the common uncertainties leaves out those which are zero: the average of one uncertainty of 1 and three of 0 comes out as 1. -/
theorem C92_zeros_left_out : windowUncertainty Fixture.ratSqrt (⟨fun _ _ => 1, fun p q => if p = 0 ∧ q = 0 then 1 else 0, fun _ _ => 0⟩ : Fields 2 2 ℚ) 1 2 false = .ok 1 := by
  decide +kernel

end Regrid
end Verif
