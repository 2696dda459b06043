import Verif.Model.PC
import Verif.Spec.Matrix
import Verif.Lemmas.GNVec
import Verif.Props.SensorData
import Mathlib.Tactic.Ring
import Mathlib.Tactic.Linarith
import Mathlib.Tactic.Positivity
/-
The matrix built by `calc_LK` is the identity plus Gram matrices.
-/
set_option autoImplicit false
namespace Verif
open Finset (sum_congr)
variable {α δ : Type}

theorem setSlice_getD {l v r : List α} {a b : Nat} (h : setSlice l a b v = .ok r) (hv : v.length = (slice l a b).length) (k : Nat) (d : α) :
    r.getD k d = if a ≤ k ∧ k < a + v.length then v.getD (k - a) d else l.getD k d := by
  unfold setSlice at h
  simp only [hv, if_true, Except.ok.injEq] at h
  subst h
  have hn : (slice l a b).length = min (b - a) (l.length - a) := by simp [slice]
  simp only [List.getD, List.getElem?_append, List.length_append, List.length_take]
  by_cases h1 : k < min a l.length
  · rw [if_pos (by omega), if_pos (by omega), if_neg (by omega)]
    rw [List.getElem?_take_of_lt (by omega)]
  · by_cases h2 : k < min a l.length + v.length
    · rw [if_pos h2, if_neg h1]
      have : min a l.length = a := by omega
      rw [if_pos (by omega), this]
    · rw [if_neg h2, if_neg (by omega), List.getElem?_drop]
      by_cases h3 : a ≤ l.length
      · congr 2; omega
      · rw [List.getElem?_eq_none (by omega), List.getElem?_eq_none (by omega)]

theorem setSlice_len {l v r : List α} {a b : Nat} (h : setSlice l a b v = .ok r) (hv : v.length = (slice l a b).length) : r.length = l.length := by
  unfold setSlice at h
  simp only [hv, if_true, Except.ok.injEq] at h
  subst h
  have hn : (slice l a b).length = min (b - a) (l.length - a) := by simp [slice]
  simp only [List.length_append, List.length_take, List.length_drop, hv]; omega

theorem sum_zipWith_range [Field α] {a b : List α} {n : Nat} (ha : a.length = n) (hb : b.length = n) :
    (List.zipWith (· * ·) a b).sum = ∑ i ∈ Finset.range n, a.getD i 0 * b.getD i 0 := by
  have := npDot_vector (n := n) ha hb
  unfold npDot at this
  rw [if_pos (by omega)] at this
  simpa [dotN, ent] using Except.ok.inj this

/-- `dot(J, J.T)`: all rows of `J` have the same length, and the entries are their scalar products. -/
theorem npGram_ok [Field α] {J G : List (List α)} (h : npGram J = .ok G) : G.length = J.length ∧ (∀ r ∈ G, r.length = J.length) ∧
    ∃ L, ∀ i j, i < J.length → j < J.length → entry G i j = ∑ l ∈ Finset.range L, (J.getD i []).getD l 0 * (J.getD j []).getD l 0 := by
  unfold npGram at h
  obtain ⟨hl, hg⟩ := mapM_ok_get h
  have hrow : ∀ (i : Nat) (r : List α), J[i]? = some r → ∃ q, G[i]? = some q ∧ q.length = J.length ∧
      ∀ (j : Nat) (s : List α), J[j]? = some s → r.length = s.length ∧ q[j]? = some (List.zipWith (· * ·) r s).sum := by
    intro i r hr
    obtain ⟨q, hq, hqi⟩ := hg i r hr
    obtain ⟨hql, hqg⟩ := mapM_ok_get hq
    refine ⟨q, hqi, hql, fun j s hs => ?_⟩
    obtain ⟨c, hc, hcj⟩ := hqg j s hs
    unfold npDot at hc
    split at hc
    · rename_i hlen
      cases hc; exact ⟨hlen, hcj⟩
    · cases hc
  refine ⟨hl, fun r hr => ?_, (J.getD 0 []).length, fun i j hi hj => ?_⟩
  · obtain ⟨i, hi, rfl⟩ := List.getElem_of_mem hr
    obtain ⟨q, hq, hql, _⟩ := hrow i (J[i]'(by omega)) (by simp)
    rw [List.getElem?_eq_getElem hi] at hq
    cases hq; exact hql
  · obtain ⟨q, hq, hql, hqg⟩ := hrow i J[i] (by simp)
    obtain ⟨h1, h2⟩ := hqg j J[j] (by simp)
    obtain ⟨h3, _⟩ := hqg 0 (J[0]'(by omega)) (by simp)
    have e : entry G i j = (List.zipWith (· * ·) J[i] J[j]).sum := by simp [entry, List.getD, hq, h2]
    have e1 : J.getD i [] = J[i] := by simp [List.getD, hi]
    have e2 : J.getD j [] = J[j] := by simp [List.getD, hj]
    have e3 : (J.getD 0 []).length = J[i].length := by
      rw [h3]; simp [List.getD, show 0 < J.length by omega]
    rw [e, e1, e2, e3, sum_zipWith_range rfl h1.symm]

theorem slice_getD {l : List α} {a b k : Nat} {d : α} (h : k < (slice l a b).length) : (slice l a b).getD k d = l.getD (a + k) d := by
  have hn : (slice l a b).length = min (b - a) (l.length - a) := by simp [slice]
  simp [slice, List.getD]
  rw [List.getElem?_take_of_lt (by omega)]
  simp

theorem npZip_getD [Zero α] {f : α → α → α} {a b c : List α} (h : npZip f a b = .ok c) (hl : a.length = b.length) (k : Nat) (hk : k < a.length) :
    c.length = a.length ∧ c.getD k 0 = f (a.getD k 0) (b.getD k 0) := by
  rw [npZip_eq hl] at h
  cases h
  simp [List.getD, hk, show k < b.length by omega]
  omega

theorem npZip_one_getD [Zero α] {f : α → α → α} {a b c : List α} (h : npZip f a b = .ok c) (hb : b.length = 1) (k : Nat) (hk : k < a.length) :
    c.length = a.length ∧ c.getD k 0 = f (a.getD k 0) (b.getD 0 0) := by
  obtain ⟨y, rfl⟩ := List.length_eq_one_iff.1 hb
  unfold npZip at h
  split at h
  · cases h
    rename_i hl
    simp at hl
    have : k = 0 := by omega
    subst this
    simp [List.getD, hl]
  · split at h
    · cases h
      rename_i x hx
      simp at hx
    · rename_i heq _
      simp only [List.cons.injEq, and_true] at heq
      subst heq
      cases h
      simp [List.getD, hk]
    · cases h

/-- The sum of the window and `G`, for a square `G`: either `G` has the size of the window, or it is a single number. -/
theorem matAdd_ok [Field α] {W G S : List (List α)} {k N : Nat} (hW : IsSquare W k) (hG : IsSquare G N) (h : matAdd W G = .ok S) (hS : S.length = k) :
    (N = k ∨ N = 1) ∧ (∀ r ∈ S, r.length = k) ∧
    ∀ i j, i < k → j < k → entry S i j = entry W i j + if N = k then entry G i j else entry G 0 0 := by
  have point : ∀ {A : List (List α)} {f : List α → Py (List α)} {B : List (List α)}, A.mapM f = .ok B → ∀ (i : Nat) r, A[i]? = some r → ∃ c, f r = .ok c ∧ B[i]? = some c :=
    fun h i r hr => (mapM_ok_get h).2 i r hr
  unfold matAdd at h
  rw [hW.1, hG.1] at h
  split at h
  · rename_i hk
    subst hk
    obtain ⟨_, hg⟩ := mapM_ok_get h
    have hrow : ∀ i, i < k → ∃ c, npZip (· + ·) (W.getD i []) (G.getD i []) = .ok c ∧ S[i]? = some c ∧ (W.getD i []).length = k ∧ (G.getD i []).length = k := by
      intro i hi
      have h1 : i < W.length := by rw [hW.1]; exact hi
      have h2 : i < G.length := by rw [hG.1]; exact hi
      obtain ⟨c, hc, hs⟩ := hg i (W[i], G[i]) (by simp [List.getElem?_zip_eq_some])
      refine ⟨c, by simpa [List.getD, h1, h2] using hc, hs, ?_, ?_⟩
      · simp [List.getD, h1, hW.2 _ (List.getElem_mem h1)]
      · simp [List.getD, h2, hG.2 _ (List.getElem_mem h2)]
    refine ⟨.inl rfl, fun r hr => ?_, fun i j hi hj => ?_⟩
    · obtain ⟨i, hi, rfl⟩ := List.getElem_of_mem hr
      obtain ⟨c, hc, hs, h1, h2⟩ := hrow i (by omega)
      rw [List.getElem?_eq_getElem hi] at hs
      cases hs
      rw [npZip_eq (by omega)] at hc
      rw [← Except.ok.inj hc]; simp only [List.length_zipWith]; omega
    · obtain ⟨c, hc, hs, h1, h2⟩ := hrow i hi
      have := (npZip_getD hc (by omega) j (by omega)).2
      simp only [if_true]
      unfold entry
      rw [← this]; simp [List.getD, hs]
  · rename_i hne
    split at h
    · rename_i a B
      have := (mapM_ok_get h).1
      have h1 := hG.1
      have h2 := hW.1
      simp at h2
      omega
    · rename_i b _
      have hN : N = 1 := by have := hG.1; simp at this; omega
      subst hN
      have hb : b.length = 1 := hG.2 b (by simp)
      have hrow : ∀ i, i < k → ∃ c, npZip (· + ·) (W.getD i []) b = .ok c ∧ S[i]? = some c ∧ (W.getD i []).length = k := by
        intro i hi
        have h1 : i < W.length := by rw [hW.1]; exact hi
        obtain ⟨c, hc, hs⟩ := point h i W[i] (by simp)
        refine ⟨c, by simpa [List.getD, h1] using hc, hs, ?_⟩
        simp [List.getD, h1, hW.2 _ (List.getElem_mem h1)]
      refine ⟨.inr rfl, fun r hr => ?_, fun i j hi hj => ?_⟩
      · obtain ⟨i, hi, rfl⟩ := List.getElem_of_mem hr
        obtain ⟨c, hc, hs, h1⟩ := hrow i (by omega)
        rw [List.getElem?_eq_getElem hi] at hs
        cases hs
        rw [(npZip_one_getD hc hb 0 (by omega)).1, h1]
      · obtain ⟨c, hc, hs, h1⟩ := hrow i hi
        have := (npZip_one_getD hc hb j (by omega)).2
        rw [if_neg (by omega)]
        unfold entry
        simp only [List.getD, hs, Option.getD_some] at this ⊢
        rw [this]
        simp [List.getD]
    · cases h

/-- Adding a square matrix in a window of the diagonal. -/
theorem addWindow_entry [Field α] {V V' G : List (List α)} {n N a b : Nat} (hV : IsSquare V n) (hG : IsSquare G N) (h : addWindow V a b G = .ok V') :
    ∃ k, k = min (b - a) (n - a) ∧ (N = k ∨ N = 1) ∧ IsSquare V' n ∧ ∀ i j, i < n → j < n → entry V' i j = entry V i j +
      if (a ≤ i ∧ i < a + k) ∧ (a ≤ j ∧ j < a + k) then (if N = k then entry G (i - a) (j - a) else entry G 0 0) else 0 := by
  unfold addWindow at h
  obtain ⟨S, hS, h⟩ := bind_ok.1 h
  split at h
  swap
  · cases h
  rename_i hSl
  obtain ⟨rows, hrows, hfin⟩ := bind_ok.1 h
  clear h
  obtain ⟨k, hk⟩ : ∃ k, k = (slice V a b).length := ⟨_, rfl⟩
  rw [← hk] at hSl
  have hkn : k = min (b - a) (n - a) := by rw [hk]; simp [slice, hV.1]
  have hrl : ∀ r : List α, r.length = n → (slice r a b).length = k := by intro r hr; simp [slice, hr, hkn]
  have hmem : ∀ r ∈ slice V a b, r.length = n := fun r hr => hV.2 r (List.mem_of_mem_drop (List.mem_of_mem_take hr))
  have hW : IsSquare ((slice V a b).map fun r => slice r a b) k := by
    refine ⟨by simp [hk], fun r hr => ?_⟩
    obtain ⟨q, hq, rfl⟩ := List.mem_map.1 hr
    exact hrl q (hmem q hq)
  obtain ⟨hN, hSr, hSe⟩ := matAdd_ok hW hG hS hSl
  obtain ⟨hrl', hrg⟩ := mapM_ok_get hrows
  have hzl : ((slice V a b).zip S).length = k := by simp [hSl, ← hk]
  -- a row of the window
  have hrow : ∀ i, i < k → ∃ r, rows[i]? = some r ∧ r.length = n ∧ ∀ j, r.getD j 0 = if a ≤ j ∧ j < a + k then entry S i (j - a) else entry V (a + i) j := by
    intro i hi
    have h1 : i < (slice V a b).length := hk ▸ hi
    have h2 : i < S.length := by omega
    obtain ⟨r, hr, hri⟩ := hrg i ((slice V a b)[i], S[i]) (by simp [List.getElem?_zip_eq_some])
    have hl := hmem _ (List.getElem_mem h1)
    have hv : S[i].length = (slice (slice V a b)[i] a b).length := by rw [hrl _ hl, hSr _ (List.getElem_mem h2)]
    refine ⟨r, hri, by rw [setSlice_len hr hv, hl], fun j => ?_⟩
    rw [setSlice_getD hr hv, hSr _ (List.getElem_mem h2)]
    have e1 : S.getD i [] = S[i] := by simp [List.getD, h2]
    have e2 : V.getD (a + i) [] = (slice V a b)[i] := by
      rw [← slice_getD (b := b) h1]; simp only [List.getD, List.getElem?_eq_getElem h1, Option.getD_some]
    unfold entry
    rw [e1, e2]
  have hv : rows.length = (slice V a b).length := by rw [hrl', hzl, hk]
  have hV'l := setSlice_len hfin hv
  have hV'g := setSlice_getD hfin hv
  have hrk : rows.length = k := by rw [hrl', hzl]
  refine ⟨k, hkn, hN, ⟨by rw [hV'l, hV.1], fun r hr => ?_⟩, ?_⟩
  · obtain ⟨i, hi, rfl⟩ := List.getElem_of_mem hr
    have e : V'[i] = V'.getD i [] := by simp [List.getD, hi]
    rw [e, hV'g i []]
    split
    · rename_i hc
      obtain ⟨r, hr, hl, _⟩ := hrow (i - a) (by omega)
      simp [List.getD, hr, hl]
    · have : i < V.length := by rw [hV'l] at hi; exact hi
      simp only [List.getD, List.getElem?_eq_getElem this, Option.getD_some]
      exact hV.2 _ (List.getElem_mem this)
  · intro i j hi hj
    have e : entry V' i j = (V'.getD i []).getD j 0 := rfl
    rw [e, hV'g i [], hrk]
    by_cases hc : a ≤ i ∧ i < a + k
    · rw [if_pos hc]
      obtain ⟨r, hr, hl, hre⟩ := hrow (i - a) (by omega)
      have e1 : rows.getD (i - a) [] = r := by simp [List.getD, hr]
      rw [e1, hre j, show a + (i - a) = i by omega]
      simp only [hc, and_self, if_true]
      by_cases hd : a ≤ j ∧ j < a + k
      · rw [if_pos hd, hSe _ _ (by omega) (by omega)]
        simp only [hd, and_self, if_true]
        have e2 : entry ((slice V a b).map fun r => slice r a b) (i - a) (j - a) = entry V i j := by
          have h1 : i - a < (slice V a b).length := by omega
          have h2 : i < V.length := by rw [hV.1]; exact hi
          have e3 : ((slice V a b).map fun r => slice r a b).getD (i - a) [] = slice (V.getD i []) a b := by
            have := slice_getD (l := V) (a := a) (b := b) (d := []) h1
            rw [show a + (i - a) = i by omega] at this
            rw [← this]
            simp only [List.getD, List.getElem?_map, List.getElem?_eq_getElem h1, Option.map_some, Option.getD_some]
          unfold entry
          rw [e3, slice_getD]
          · rw [show a + (j - a) = j by omega]
          · rw [hrl]
            · omega
            · simp [List.getD, h2, hV.2 _ (List.getElem_mem h2)]
        rw [e2]
      · rw [if_neg hd]
        simp [hd]
    · rw [if_neg hc]
      simp [hc, entry]

/-- Adding a Gram matrix in a window of the diagonal adds `A Aᵀ` for some `A`. -/
theorem addWindow_ok [Field α] {V V' J G : List (List α)} {n a b : Nat} (hV : IsSquare V n) (hG : npGram J = .ok G) (h : addWindow V a b G = .ok V') :
    IsSquare V' n ∧ ∃ (L : Nat) (A : Nat → Nat → α), ∀ i j, i < n → j < n → entry V' i j = entry V i j + ∑ l ∈ Finset.range L, A i l * A j l := by
  obtain ⟨g1, g2, L, g3⟩ := npGram_ok hG
  obtain ⟨k, hk, hN, hsq, he⟩ := addWindow_entry hV ⟨g1, g2⟩ h
  refine ⟨hsq, L, fun i l => if a ≤ i ∧ i < a + k then (J.getD (if J.length = k then i - a else 0) []).getD l 0 else 0, fun i j hi hj => ?_⟩
  rw [he i j hi hj]
  congr 1
  by_cases hc : a ≤ i ∧ i < a + k
  · by_cases hd : a ≤ j ∧ j < a + k
    · simp only [hc, hd, and_self, if_true]
      split
      · rw [g3 _ _ (by omega) (by omega)]
      · rw [g3 _ _ (by omega) (by omega)]
    · simp [hd]
  · simp [hc]

theorem addSys_ok [Field α] {V JT : List (List α)} {n : Nat} (hV : IsSquare V n) :
    IsSquare (addSys V JT) n ∧ ∃ (L : Nat) (A : Nat → Nat → α), ∀ i j, i < n → j < n → entry (addSys V JT) i j = entry V i j + ∑ l ∈ Finset.range L, A i l * A j l := by
  refine ⟨⟨by simp [addSys, hV.1], fun r hr => ?_⟩, JT.length, fun i l => (JT.getD l []).getD i 0, fun i j hi hj => ?_⟩
  · unfold addSys at hr
    obtain ⟨q, hq, rfl⟩ := List.mem_map.1 hr
    have := List.fst_mem_of_mem_zipIdx hq
    simp [hV.2 _ this]
  · have h1 : i < V.length := by rw [hV.1]; exact hi
    have h2 : j < V[i].length := by rw [hV.2 _ (List.getElem_mem h1)]; exact hj
    have hs : (JT.map fun c => c.getD i 0 * c.getD j 0).sum = ∑ l ∈ Finset.range JT.length, (JT.getD l []).getD i 0 * (JT.getD l []).getD j 0 := by
      rw [← list_sum_range]
      congr 1
      apply List.ext_getElem
      · simp
      · intro l h3 h4
        have : l < JT.length := by simpa using h3
        simp [List.getD, this]
    rw [← hs]
    simp [entry, addSys, List.getD, h1, h2]

/-- Square of size `n`, symmetric, and at least the identity. -/
structure Above [Field α] [LinearOrder α] (n : Nat) (M : List (List α)) : Prop where
  square : IsSquare M n
  symm : ∀ i j, i < n → j < n → entry M i j = entry M j i
  above : ∀ x : Nat → α, ∑ i ∈ Finset.range n, x i * x i ≤ quadForm n M x

theorem Above.add [Field α] [LinearOrder α] [IsStrictOrderedRing α] {n : Nat} {M M' : List (List α)} (h : Above n M) (hs : IsSquare M' n) {L : Nat} {A : Nat → Nat → α}
    (he : ∀ i j, i < n → j < n → entry M' i j = entry M i j + ∑ l ∈ Finset.range L, A i l * A j l) : Above n M' := by
  refine ⟨hs, fun i j hi hj => ?_, fun x => ?_⟩
  · rw [he i j hi hj, he j i hj hi, h.symm i j hi hj]
    congr 1
    exact sum_congr rfl fun l _ => mul_comm _ _
  · have e : quadForm n M' x = quadForm n M x + ∑ l ∈ Finset.range L, (∑ i ∈ Finset.range n, x i * A i l) * (∑ i ∈ Finset.range n, x i * A i l) := by
      unfold quadForm
      have e1 : ∀ i ∈ Finset.range n, ∑ j ∈ Finset.range n, x i * entry M' i j * x j = ∑ j ∈ Finset.range n, x i * entry M i j * x j +
          ∑ l ∈ Finset.range L, ∑ j ∈ Finset.range n, (x i * A i l) * (x j * A j l) := by
        intro i hi
        rw [Finset.sum_comm (s := Finset.range L), ← Finset.sum_add_distrib]
        apply sum_congr rfl
        intro j hj
        rw [he i j (by simpa using hi) (by simpa using hj), mul_add, add_mul, Finset.mul_sum, Finset.sum_mul]
        congr 1
        exact sum_congr rfl fun l _ => by ring
      rw [sum_congr rfl e1, Finset.sum_add_distrib, Finset.sum_comm (s := Finset.range n) (t := Finset.range L)]
      congr 1
      exact sum_congr rfl fun l _ => (Finset.sum_mul_sum _ _ _ _).symm
    rw [e]
    refine le_trans (h.above x) (le_add_of_nonneg_right (Finset.sum_nonneg fun l _ => mul_self_nonneg _))

theorem npEye_above [Field α] [LinearOrder α] [IsStrictOrderedRing α] (n : Nat) : Above n (npEye n : List (List α)) := by
  have he : ∀ i j, i < n → j < n → entry (npEye n : List (List α)) i j = if i = j then 1 else 0 := by
    intro i j hi hj
    simp [entry, npEye, List.getD, hi, hj]
  refine ⟨⟨by simp [npEye], by simp [npEye]⟩, fun i j hi hj => ?_, fun x => ?_⟩
  · rw [he i j hi hj, he j i hj hi]
    by_cases h : i = j
    · simp [h]
    · simp [h, Ne.symm h]
  · apply le_of_eq
    unfold quadForm
    apply sum_congr rfl
    intro i hi
    rw [sum_congr rfl fun j hj => by rw [he i j (by simpa using hi) (by simpa using hj)]]
    simp only [mul_ite, mul_one, mul_zero, ite_mul, zero_mul]
    rw [Finset.sum_ite_eq (Finset.range n) i fun j => x i * x j]
    simp [hi]

theorem foldlM_inv {β σ : Type} {P : σ → Prop} {f : σ → β → Py σ} (hf : ∀ s b s', P s → f s b = .ok s' → P s') : ∀ {l : List β} {s s' : σ}, P s → l.foldlM f s = .ok s' → P s'
  | [], s, s', hs, h => by simp [pure, Except.pure] at h; subst h; exact hs
  | b :: l, s, s', hs, h => by
    rw [List.foldlM_cons] at h
    obtain ⟨s1, h1, h⟩ := bind_ok.1 h
    exact foldlM_inv hf (hf _ _ _ hs h1) h

theorem PC.calcVK_above [Field α] [LinearOrder α] [IsStrictOrderedRing α] {p : PC α δ} {V : List (List α)} (h : p.calcVK = .ok V) :
    ∃ n, pyLast p.hd.mu.idx.cNm = .ok n ∧ Above n V := by
  unfold PC.calcVK at h
  obtain ⟨n, hn, h⟩ := bind_ok.1 h
  obtain ⟨labels, _, h⟩ := bind_ok.1 h
  obtain ⟨N_cov, _, h⟩ := bind_ok.1 h
  obtain ⟨st, hst, h⟩ := bind_ok.1 h
  rw [← pure_ok.1 h]
  refine ⟨n, hn, ?_⟩
  have key : Above n st.VK := by
    refine foldlM_inv (P := fun s : PCState α => Above n s.VK) (fun s pi s' hs h => ?_) (npEye_above n) hst
    have upd : ∀ (s' : PCState α) (J G VK : List (List α)) (a b : Nat), Above n s'.VK → npGram J = .ok G → addWindow s'.VK a b G = .ok VK → Above n VK := by
      intro s' J G VK a b h hG hV
      obtain ⟨h1, L, A, h2⟩ := addWindow_ok h.square hG hV
      exact h.add h1 h2
    have side : ∀ (rows : Nat × Nat) (uK : List α) (n_mu : Nat) (sg : α) (n_sensor : Nat) (s s' : PCState α), Above n s.VK →
        p.sideVar N_cov rows uK n_mu sg n_sensor s = .ok s' → Above n s'.VK := by
      intro rows uK n_mu sg n_sensor s s' hs h
      unfold PC.sideVar at h
      obtain ⟨R, _, h⟩ := bind_ok.1 h
      obtain ⟨B, _, h⟩ := bind_ok.1 h
      obtain ⟨JB, _, h⟩ := bind_ok.1 h
      split at h
      · unfold PC.refVar at h
        obtain ⟨im, _, h⟩ := bind_ok.1 h
        obtain ⟨u, _, h⟩ := bind_ok.1 h
        obtain ⟨uR, _, h⟩ := bind_ok.1 h
        obtain ⟨JK, _, h⟩ := bind_ok.1 h
        obtain ⟨G, hG, h⟩ := bind_ok.1 h
        obtain ⟨VK, hVK, h⟩ := bind_ok.1 h
        rw [← pure_ok.1 h]
        exact upd s JK G VK _ _ hs hG hVK
      · refine foldlM_inv (P := fun s : PCState α => Above n s.VK) (fun s c s' hs h => ?_) hs h
        unfold PC.covVar at h
        obtain ⟨im, _, h⟩ := bind_ok.1 h
        obtain ⟨u, _, h⟩ := bind_ok.1 h
        obtain ⟨s2, hs2, h⟩ := bind_ok.1 h
        obtain ⟨JK, _, h⟩ := bind_ok.1 h
        obtain ⟨G, hG, h⟩ := bind_ok.1 h
        obtain ⟨VK, hVK, h⟩ := bind_ok.1 h
        rw [← pure_ok.1 h]
        refine upd s2 JK G VK _ _ ?_ hG hVK
        have : s2.VK = s.VK := by
          split at hs2
          · obtain ⟨_, _, hs2⟩ := bind_ok.1 hs2
            obtain ⟨_, _, hs2⟩ := bind_ok.1 hs2
            obtain ⟨_, _, hs2⟩ := bind_ok.1 hs2
            rw [← pure_ok.1 hs2]
          · obtain ⟨_, _, hs2⟩ := bind_ok.1 hs2
            obtain ⟨_, _, hs2⟩ := bind_ok.1 hs2
            obtain ⟨_, _, hs2⟩ := bind_ok.1 hs2
            obtain ⟨_, _, hs2⟩ := bind_ok.1 hs2
            obtain ⟨_, _, hs2⟩ := bind_ok.1 hs2
            obtain ⟨_, _, hs2⟩ := bind_ok.1 hs2
            obtain ⟨_, _, hs2⟩ := bind_ok.1 hs2
            rw [← pure_ok.1 hs2]
          · cases hs2; rfl
        rw [this]; exact hs
    unfold PC.seriesVar at h
    obtain ⟨uK, _, h⟩ := bind_ok.1 h
    obtain ⟨lo, _, h⟩ := bind_ok.1 h
    obtain ⟨hi, _, h⟩ := bind_ok.1 h
    obtain ⟨s1, h1, h⟩ := bind_ok.1 h
    exact side _ _ _ _ _ _ _ (side _ _ _ _ _ _ _ hs h1) h
  obtain ⟨h1, L, A, h2⟩ := addSys_ok (JT := st.JT) key.square
  exact key.add h1 h2

end Verif
