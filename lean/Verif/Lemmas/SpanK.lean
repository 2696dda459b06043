import Verif.Lemmas.MinresCommon
import Verif.Props.CovRenumber
/-
The normal equations on the span of the K rows of the Jacobian and the parameters.
-/
set_option autoImplicit false
namespace Verif
open Matrix Finset
variable {α : Type} [Field α]

/-- The components of a vector by number. -/
def num {m : Nat} (u : Fin m → α) (i : Nat) : α := if h : i < m then u ⟨i, h⟩ else 0

theorem num_add {m : Nat} (u v : Fin m → α) (i : Nat) : num (u + v) i = num u i + num v i := by
  unfold num
  split
  · rfl
  · rw [add_zero]

theorem num_smul {m : Nat} (c : α) (u : Fin m → α) (i : Nat) : num (c • u) i = c * num u i := by
  unfold num
  split
  · rfl
  · rw [mul_zero]

theorem num_fn {m : Nat} (f : Nat → α) {i : Nat} (h : i < m) : num (fun j : Fin m => f j) i = f i := by
  unfold num
  rw [dif_pos h]

theorem num_val {m : Nat} (u : Fin m → α) (i : Fin m) : num u i = u i := by
  unfold num
  rw [dif_pos i.2]

theorem sum_num {m : Nat} (F : Nat → α) (u : Fin m → α) : ∑ i : Fin m, F i * u i = ∑ i ∈ range m, F i * num u i := by
  rw [Finset.sum_range]
  exact sum_congr rfl fun i _ => by rw [num_val]

/-- Combinations of `T` rows `G` of length `Nv`, and `P` parameters. -/
def spanMap (Nv T P : Nat) (G : Nat → Nat → α) : (Fin (T + P) → α) →ₗ[α] (Fin (Nv + P) → α) where
  toFun u d := if (d : Nat) < Nv then ∑ i ∈ range T, G i d * num u i else num u (T + (d - Nv))
  map_add' u v := by
    funext d
    simp only [Pi.add_apply]
    split
    · rw [← sum_add_distrib]
      exact sum_congr rfl fun i _ => by rw [num_add]; ring
    · exact num_add _ _ _
  map_smul' c u := by
    funext d
    simp only [Pi.smul_apply, RingHom.id_apply, smul_eq_mul]
    split
    · rw [mul_sum]
      exact sum_congr rfl fun i _ => by rw [num_smul]; ring
    · exact num_smul _ _ _

theorem spanMap_row {Nv T P : Nat} {G : Nat → Nat → α} (u : Fin (T + P) → α) {d : Nat} (h : d < Nv) : num (spanMap Nv T P G u) d = ∑ i ∈ range T, G i d * num u i := by
  have hd : d < Nv + P := by omega
  have e : num (spanMap Nv T P G u) d = spanMap Nv T P G u ⟨d, hd⟩ := num_val (spanMap Nv T P G u) ⟨d, hd⟩
  rw [e]
  exact if_pos h

theorem spanMap_par {Nv T P : Nat} {G : Nat → Nat → α} (u : Fin (T + P) → α) {q : Nat} (h : q < P) : num (spanMap Nv T P G u) (Nv + q) = num u (T + q) := by
  have hd : Nv + q < Nv + P := by omega
  have e : num (spanMap Nv T P G u) (Nv + q) = spanMap Nv T P G u ⟨Nv + q, hd⟩ := num_val (spanMap Nv T P G u) ⟨Nv + q, hd⟩
  rw [e]
  refine (if_neg (by simp)).trans ?_
  simp

/-- The residuals of K. -/
def spanY (T P : Nat) (W C : Nat → Nat → α) (u : Fin (T + P) → α) (i : Nat) : α := ∑ i' ∈ range T, W i i' * num u i' + ∑ q ∈ range P, C i q * num u (T + q)

/-- The normal equations on the span, for the scalar products `W` of the rows. -/
def spanK (T P : Nat) (W C : Nat → Nat → α) (u : Fin (T + P) → α) (d : Fin (T + P)) : α :=
  if (d : Nat) < T then num u d + spanY T P W C u d else ∑ i ∈ range T, C i (d - T) * spanY T P W C u i

/-- The normal equations of a Jacobian with a unit block for the values. -/
def NormalOf {Nv P : Nat} (T : Nat) (G C : Nat → Nat → α) (H : Matrix (Fin (Nv + P)) (Fin (Nv + P)) α) : Prop :=
  ∀ v : Fin (Nv + P) → α, H *ᵥ v = fun d : Fin (Nv + P) => if (d : Nat) < Nv then v d + ∑ i ∈ range T, G i d * (∑ c ∈ range Nv, G i c * num v c + ∑ q ∈ range P, C i q * num v (Nv + q))
    else ∑ i ∈ range T, C i (d - Nv) * (∑ c ∈ range Nv, G i c * num v c + ∑ q ∈ range P, C i q * num v (Nv + q))

theorem span_y {Nv T P : Nat} {G W C : Nat → Nat → α} (hW : ∀ i i', i < T → i' < T → ∑ c ∈ range Nv, G i c * G i' c = W i i') (u : Fin (T + P) → α) {i : Nat} (hi : i < T) :
    ∑ c ∈ range Nv, G i c * num (spanMap Nv T P G u) c + ∑ q ∈ range P, C i q * num (spanMap Nv T P G u) (Nv + q) = spanY T P W C u i := by
  unfold spanY
  congr 1
  · rw [sum_congr rfl fun c hc => by rw [spanMap_row u (mem_range.1 hc), mul_sum], sum_comm]
    refine sum_congr rfl fun i' hi' => ?_
    rw [← hW i i' hi (mem_range.1 hi'), sum_mul]
    exact sum_congr rfl fun c _ => by ring
  · exact sum_congr rfl fun q hq => by rw [spanMap_par u (mem_range.1 hq)]

theorem normal_span {Nv T P : Nat} {G W C : Nat → Nat → α} {H : Matrix (Fin (Nv + P)) (Fin (Nv + P)) α} (hH : NormalOf T G C H)
    (hW : ∀ i i', i < T → i' < T → ∑ c ∈ range Nv, G i c * G i' c = W i i') (u : Fin (T + P) → α) : H *ᵥ (spanMap Nv T P G u) = spanMap Nv T P G (spanK T P W C u) := by
  rw [hH]
  funext d
  by_cases hd : (d : Nat) < Nv
  · simp only [if_pos hd]
    rw [← num_val (spanMap Nv T P G u) d, ← num_val (spanMap Nv T P G (spanK T P W C u)) d, spanMap_row _ hd, spanMap_row _ hd, ← sum_add_distrib]
    refine sum_congr rfl fun i hi => ?_
    have hi := mem_range.1 hi
    rw [span_y hW u hi]
    have e : num (spanK T P W C u) i = spanK T P W C u ⟨i, by omega⟩ := num_val (spanK T P W C u) ⟨i, by omega⟩
    rw [e]
    unfold spanK
    rw [if_pos (by exact hi)]
    ring
  · simp only [if_neg hd]
    have h2 := d.2
    obtain ⟨q, hq⟩ : ∃ q, (d : Nat) = Nv + q := ⟨d - Nv, by omega⟩
    rw [← num_val (spanMap Nv T P G (spanK T P W C u)) d, hq, spanMap_par _ (by omega), Nat.add_sub_cancel_left]
    have e : num (spanK T P W C u) (T + q) = spanK T P W C u ⟨T + q, by omega⟩ := num_val (spanK T P W C u) ⟨T + q, by omega⟩
    rw [e]
    unfold spanK
    rw [if_neg (by simp)]
    refine sum_congr rfl fun i hi => ?_
    rw [span_y hW u (mem_range.1 hi)]
    simp

theorem dot_num {Nv P : Nat} (u v : Fin (Nv + P) → α) : u ⬝ᵥ v = ∑ c ∈ range Nv, num u c * num v c + ∑ q ∈ range P, num u (Nv + q) * num v (Nv + q) := by
  rw [← sum_range_add, dotProduct, Finset.sum_range]
  exact sum_congr rfl fun i _ => by rw [num_val, num_val]

/-- Scalar products on the span. -/
theorem span_dot {Nv T P : Nat} {G W : Nat → Nat → α} (hW : ∀ i i', i < T → i' < T → ∑ c ∈ range Nv, G i c * G i' c = W i i') (u v : Fin (T + P) → α) :
    spanMap Nv T P G u ⬝ᵥ spanMap Nv T P G v = ∑ i ∈ range T, num u i * ∑ i' ∈ range T, W i i' * num v i' + ∑ q ∈ range P, num u (T + q) * num v (T + q) := by
  rw [dot_num]
  congr 1
  · rw [sum_congr rfl fun c hc => by rw [spanMap_row u (mem_range.1 hc), spanMap_row v (mem_range.1 hc), sum_mul], sum_comm]
    refine sum_congr rfl fun i hi => ?_
    rw [sum_congr rfl fun c _ => by rw [mul_sum], sum_comm, mul_sum]
    refine sum_congr rfl fun i' hi' => ?_
    rw [← hW i i' (mem_range.1 hi) (mem_range.1 hi'), sum_mul, mul_sum]
    exact sum_congr rfl fun c _ => by ring
  · exact sum_congr rfl fun q hq => by rw [spanMap_par u (mem_range.1 hq), spanMap_par v (mem_range.1 hq)]

end Verif
