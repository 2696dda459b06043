import Verif.Lemmas.PCTerms
import Verif.Lemmas.GNAdj
/-
The matrix of `calc_LK` with random uncertainties only: `I + J Jᵀ` for the Jacobian with respect to the variables.
-/
set_option autoImplicit false
namespace Verif
open Finset (sum_congr)
variable {α δ : Type}

/-- One series: first row, rows, and its terms (block, factor of each match-up). -/
structure SeriesT (α : Type) where
  lo : Nat
  k : Nat
  T : List (Nat × (Nat → α))

section
variable [Field α]

/-- Entries of one row of the Jacobian: position, value. -/
def rowTerms (pos : Nat → Nat) (ts : List (SeriesT α)) (r : Nat) : List (Nat × α) :=
  ts.flatMap fun t => if t.lo ≤ r ∧ r < t.lo + t.k then t.T.map fun e => (pos e.1 + (r - t.lo), e.2 (r - t.lo)) else []

theorem sum_scatter {N : Nat} (L' : List (Nat × α)) : ∀ (L : List (Nat × α)), (∀ e ∈ L, e.1 < N) →
    ∑ c ∈ Finset.range N, (L.map fun e => if e.1 = c then e.2 else 0).sum * (L'.map fun e => if e.1 = c then e.2 else 0).sum =
      (L.map fun e => e.2 * (L'.map fun e' => if e'.1 = e.1 then e'.2 else 0).sum).sum
  | [], _ => by simp
  | e :: L, h => by
    simp only [List.map_cons, List.sum_cons, add_mul, Finset.sum_add_distrib]
    rw [sum_scatter L' L fun e he => h e (by simp [he])]
    congr 1
    rw [Finset.sum_eq_single e.1]
    · rw [if_pos rfl]
    · intro c _ hc
      rw [if_neg (Ne.symm hc), zero_mul]
    · intro hc
      exact absurd (Finset.mem_range.2 (h e (by simp))) hc

theorem pick_none {L : List (Nat × α)} {q : Nat} (h : ∀ e ∈ L, e.1 ≠ q) : (L.map fun e => if e.1 = q then e.2 else 0).sum = 0 := by
  apply List.sum_eq_zero
  intro x hx
  obtain ⟨e, he, rfl⟩ := List.mem_map.1 hx
  rw [if_neg (h e he)]

theorem pick_one : ∀ {L : List (Nat × α)} {e : Nat × α}, (L.map (·.1)).Nodup → e ∈ L → (L.map fun e' => if e'.1 = e.1 then e'.2 else 0).sum = e.2
  | a :: L, e, h, he => by
    rw [List.map_cons, List.nodup_cons] at h
    rcases List.mem_cons.1 he with rfl | he
    · rw [List.map_cons, List.sum_cons, if_pos rfl, pick_none, add_zero]
      intro e' he' hc
      exact h.1 (List.mem_map.2 ⟨e', he', hc⟩)
    · rw [List.map_cons, List.sum_cons, pick_one h.2 he, if_neg, zero_add]
      intro hc
      exact h.1 (List.mem_map.2 ⟨e, he, hc.symm⟩)

/-- Rows with disjoint positions, each without repetition: `J Jᵀ` is diagonal. -/
theorem gram_rows {N n : Nat} (L : Nat → List (Nat × α)) (hN : ∀ r, r < n → ∀ e ∈ L r, e.1 < N) (hnd : ∀ r, r < n → ((L r).map (·.1)).Nodup)
    (hdis : ∀ r r', r < n → r' < n → r ≠ r' → ∀ e ∈ L r, ∀ e' ∈ L r', e'.1 ≠ e.1) (x : Nat → α) :
    ∑ c ∈ Finset.range N, (∑ r ∈ Finset.range n, ((L r).map fun e => if e.1 = c then e.2 else 0).sum * x r) *
        (∑ r ∈ Finset.range n, ((L r).map fun e => if e.1 = c then e.2 else 0).sum * x r) =
      ∑ r ∈ Finset.range n, x r * ((L r).map fun e => e.2 * e.2).sum * x r := by
  have h1 : ∀ r r', r < n → r' < n → ∑ c ∈ Finset.range N, ((L r).map fun e => if e.1 = c then e.2 else 0).sum * ((L r').map fun e => if e.1 = c then e.2 else 0).sum =
      if r = r' then ((L r).map fun e => e.2 * e.2).sum else 0 := by
    intro r r' hr hr'
    rw [sum_scatter _ _ (hN r hr)]
    by_cases h : r = r'
    · subst h
      rw [if_pos rfl]
      congr 1
      apply List.map_congr_left
      intro e he
      rw [pick_one (hnd r hr) he]
    · rw [if_neg h]
      apply List.sum_eq_zero
      intro y hy
      obtain ⟨e, he, rfl⟩ := List.mem_map.1 hy
      rw [pick_none (hdis r r' hr hr' h e he), mul_zero]
  have h2 : ∀ c, (∑ r ∈ Finset.range n, ((L r).map fun e => if e.1 = c then e.2 else 0).sum * x r) *
        (∑ r ∈ Finset.range n, ((L r).map fun e => if e.1 = c then e.2 else 0).sum * x r) =
      ∑ r ∈ Finset.range n, ∑ r' ∈ Finset.range n, x r * x r' * (((L r).map fun e => if e.1 = c then e.2 else 0).sum * ((L r').map fun e => if e.1 = c then e.2 else 0).sum) := by
    intro c
    rw [Finset.sum_mul_sum]
    refine sum_congr rfl fun r _ => sum_congr rfl fun r' _ => ?_
    ring
  simp only [h2]
  rw [Finset.sum_comm]
  refine sum_congr rfl fun r hr => ?_
  rw [Finset.sum_comm]
  have h3 : ∀ r' ∈ Finset.range n, ∑ c ∈ Finset.range N, x r * x r' * (((L r).map fun e => if e.1 = c then e.2 else 0).sum * ((L r').map fun e => if e.1 = c then e.2 else 0).sum) =
      if r = r' then x r * ((L r).map fun e => e.2 * e.2).sum * x r else 0 := by
    intro r' hr'
    rw [← Finset.mul_sum, h1 r r' (Finset.mem_range.1 hr) (Finset.mem_range.1 hr')]
    by_cases h : r = r'
    · subst h; rw [if_pos rfl, if_pos rfl]; ring
    · rw [if_neg h, if_neg h, mul_zero]
  rw [sum_congr rfl h3, Finset.sum_ite_eq, if_pos hr]

theorem rowTerms_sum (pos : Nat → Nat) (ts : List (SeriesT α)) (r : Nat) (f : Nat × α → α) :
    ((rowTerms pos ts r).map f).sum = (ts.map fun t => if t.lo ≤ r ∧ r < t.lo + t.k then (t.T.map fun e => f (pos e.1 + (r - t.lo), e.2 (r - t.lo))).sum else 0).sum := by
  unfold rowTerms
  induction ts with
  | nil => simp
  | cons t ts ih =>
    rw [List.flatMap_cons, List.map_append, List.sum_append, ih, List.map_cons, List.sum_cons]
    congr 1
    split
    · rw [List.map_map]; rfl
    · simp

theorem addSys_zero {V : List (List α)} {n L : Nat} (hV : IsSquare V n) (i j : Nat) (hi : i < n) (hj : j < n) :
    entry (addSys V (List.replicate L (List.replicate n 0))) i j = entry V i j := by
  have h1 : i < V.length := by rw [hV.1]; exact hi
  have h2 : j < V[i].length := by rw [hV.2 _ (List.getElem_mem h1)]; exact hj
  simp [entry, addSys, List.getD, h1, h2, hi]

/-- Several series. -/
theorem fold_series {p : PC α δ} {N_cov n : Nat} : ∀ {l : List ((Nat × Nat) × Nat)} {ts : List (SeriesT α)},
    List.Forall₂ (fun pi t => ∀ st : PCState α, IsSquare st.VK n → ∃ st', p.seriesVar N_cov st pi = .ok st' ∧ IsSquare st'.VK n ∧ st'.JT = st.JT ∧
      ∀ i j, i < n → j < n → entry st'.VK i j = entry st.VK i j + if i = j ∧ t.lo ≤ i ∧ i < t.lo + t.k then (t.T.map fun e => e.2 (i - t.lo) * e.2 (i - t.lo)).sum else 0) l ts →
    ∀ st : PCState α, IsSquare st.VK n → ∃ st', l.foldlM (p.seriesVar N_cov) st = .ok st' ∧ IsSquare st'.VK n ∧ st'.JT = st.JT ∧
      ∀ i j, i < n → j < n → entry st'.VK i j = entry st.VK i j +
        if i = j then (ts.map fun t => if t.lo ≤ i ∧ i < t.lo + t.k then (t.T.map fun e => e.2 (i - t.lo) * e.2 (i - t.lo)).sum else 0).sum else 0
  | _, _, .nil, st, hV => ⟨st, rfl, hV, rfl, fun i j _ _ => by simp⟩
  | _, _, .cons h hs, st, hV => by
    obtain ⟨st1, e1, e2, e3, e4⟩ := h st hV
    obtain ⟨st2, f1, f2, f3, f4⟩ := fold_series hs st1 e2
    refine ⟨st2, ?_, f2, f3.trans e3, fun i j hi hj => ?_⟩
    · rw [List.foldlM_cons, e1]; exact f1
    · rw [f4 i j hi hj, e4 i j hi hj, add_assoc]
      congr 1
      by_cases hc : i = j
      · subst hc; simp
      · simp [hc]

end
end Verif
