import Verif.Lemmas.Minres
/-
LSMR: the bidiagonalisation and the plane rotations.
-/
set_option autoImplicit false
namespace Verif
variable {α : Type} [Field α] [LinearOrder α] [IsStrictOrderedRing α] {m n : Nat}
open Matrix

omit [IsStrictOrderedRing α] in
theorem pyDiv_ok {a b c : α} (h : pyDiv a b = .ok c) : b ≠ 0 ∧ c = a / b := by
  unfold pyDiv at h
  by_cases hb : b = 0
  · rw [if_pos hb] at h; cases h
  · rw [if_neg hb] at h; cases h; exact ⟨hb, rfl⟩

theorem signOf_mul (a : α) : signOf a * signOf a = 1 ∧ signOf a * |a| = a ∧ signOf a * a = |a| ∧ (0 ≤ a → signOf a = 1) := by
  unfold signOf
  by_cases h : a < 0
  · rw [if_pos h, abs_of_neg h]
    refine ⟨by ring, by ring, by ring, fun h' => absurd h (not_lt.2 h')⟩
  · rw [if_neg h, abs_of_nonneg (not_lt.1 h)]
    refine ⟨by ring, by ring, by ring, fun _ => rfl⟩

theorem pivot_rot {p o tau q f r : α} (hp : p ≠ 0) (ht : tau = o / p) (q0 : 0 ≤ q) (qq : q * q = 1 + tau * tau) (qn : q ≠ 0) (hf : f = signOf p / q)
    (hr : r = p / f) : f * f + f * tau * (f * tau) = 1 ∧ f * r = p ∧ f * tau * r = o ∧ 0 < r := by
  obtain ⟨g1, g2, g3, _⟩ := signOf_mul p
  have hg : signOf p ≠ 0 := by intro h; rw [h] at g1; simp at g1
  have hf0 : f ≠ 0 := by rw [hf]; exact div_ne_zero hg qn
  have hfq : f * q = signOf p := by rw [hf]; field_simp
  have hfr : f * r = p := by rw [hr]; field_simp
  refine ⟨?_, hfr, ?_, ?_⟩
  · have : f * q * (f * q) = 1 := by rw [hfq, g1]
    linear_combination this - f * f * qq
  · rw [mul_right_comm, hfr, ht]; field_simp
  · have : r = |p| * q := by
      have : f * r * q = f * (|p| * q) * q := by
        rw [hfr]
        linear_combination q * (-(|p|) * hfq) - q * g2
      exact mul_left_cancel₀ hf0 (mul_right_cancel₀ qn this)
    rw [this]
    exact mul_pos (abs_pos.2 hp) (lt_of_le_of_ne q0 (Ne.symm qn))

/-- `symOrtho` is a rotation taking `(a, b)` to `(r, 0)` with `r` not negative. -/
theorem symOrtho_ok {sqrt : α → Py α} (hs : IsSqrt sqrt) {a b c s r : α} (h : symOrtho sqrt a b = .ok (c, s, r)) :
    c * c + s * s = 1 ∧ c * r = a ∧ s * r = b ∧ 0 ≤ r ∧ (0 ≤ a → 0 ≤ c) ∧ (0 ≤ b → 0 ≤ s) := by
  have sg : ∀ x : α, (0 ≤ x → signOf x = 1) := fun x => (signOf_mul x).2.2.2
  have pos : ∀ {x r a : α}, 0 < r → x * r = a → 0 ≤ a → 0 ≤ x := fun hr e ha => by
    rw [← e] at ha; exact nonneg_of_mul_nonneg_left ha hr
  unfold symOrtho at h
  by_cases hb : b = 0
  · rw [if_pos hb, pure_ok, Prod.mk.injEq, Prod.mk.injEq] at h
    obtain ⟨rfl, rfl, rfl⟩ := h
    obtain ⟨g1, g2, _⟩ := signOf_mul a
    refine ⟨by rw [g1]; ring, g2, by rw [hb]; ring, abs_nonneg a, fun ha => by rw [sg a ha]; exact zero_le_one, fun _ => le_rfl⟩
  rw [if_neg hb] at h
  by_cases ha : a = 0
  · rw [if_pos ha, pure_ok, Prod.mk.injEq, Prod.mk.injEq] at h
    obtain ⟨rfl, rfl, rfl⟩ := h
    obtain ⟨g1, g2, _⟩ := signOf_mul b
    refine ⟨by rw [g1]; ring, by rw [ha]; ring, g2, abs_nonneg b, fun _ => le_rfl, fun hb => by rw [sg b hb]; exact zero_le_one⟩
  rw [if_neg ha] at h
  by_cases hab : |a| < |b|
  · rw [if_pos hab] at h
    obtain ⟨tau, h1, h⟩ := bind_ok.1 h
    obtain ⟨q, h2, h⟩ := bind_ok.1 h
    obtain ⟨s', h3, h⟩ := bind_ok.1 h
    obtain ⟨r', h4, h⟩ := bind_ok.1 h
    rw [pure_ok, Prod.mk.injEq, Prod.mk.injEq] at h
    obtain ⟨rfl, rfl, rfl⟩ := h
    obtain ⟨e1, e2, e3, e4⟩ := pivot_rot hb (pyDiv_ok h1).2 (hs _ _ h2).1 (hs _ _ h2).2 (pyDiv_ok h3).1 (pyDiv_ok h3).2 (pyDiv_ok h4).2
    exact ⟨by linear_combination e1, e3, e2, e4.le, pos e4 e3, pos e4 e2⟩
  · rw [if_neg hab] at h
    obtain ⟨tau, h1, h⟩ := bind_ok.1 h
    obtain ⟨q, h2, h⟩ := bind_ok.1 h
    obtain ⟨s', h3, h⟩ := bind_ok.1 h
    obtain ⟨r', h4, h⟩ := bind_ok.1 h
    rw [pure_ok, Prod.mk.injEq, Prod.mk.injEq] at h
    obtain ⟨rfl, rfl, rfl⟩ := h
    obtain ⟨e1, e2, e3, e4⟩ := pivot_rot ha (pyDiv_ok h1).2 (hs _ _ h2).1 (hs _ _ h2).2 (pyDiv_ok h3).1 (pyDiv_ok h3).2 (pyDiv_ok h4).2
    exact ⟨e1, e2, e3, e4.le, pos e4 e2, pos e4 e3⟩

end Verif
