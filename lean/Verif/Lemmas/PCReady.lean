import Verif.Lemmas.PCMat
import Verif.Lemmas.GNAdj
/-
`calc_LK` on a ready match-up with random uncertainties only: the matrix is diagonal, and its diagonal is found from the rows of the Jacobian.
-/
set_option autoImplicit false
namespace Verif
open Finset (sum_congr)
variable {α δ : Type}

/-- The Gauss-Newton solver on the same data, at the same estimate, without preconditioner. -/
def PC.asGN [Field α] (p : PC α δ) : GN α δ :=
  { hd := p.hd, xyza := p.xyza, S := (List.range p.hd.a.length).map fun i => (List.range p.hd.a.length).map fun j => if i = j then 1 else 0 }

section
variable [Field α]

theorem mapM_congr' {β γ : Type} {f h : β → Py γ} : ∀ {l : List β}, (∀ a ∈ l, f a = h a) → l.mapM f = l.mapM h
  | [], _ => rfl
  | a :: l, hl => by
    rw [List.mapM_cons, List.mapM_cons, hl a (by simp), mapM_congr' (l := l) fun x hx => hl x (by simp [hx])]

theorem unconvertXs_noW {ws : List (Option (CSR α))} {us : List (Option (List α))} {xyza : List α} {unc : List (UncBlock α)} {x : Idx} {s n : Nat}
    (h : ∀ u ∈ unc, u.unc.typeID = 1 ∨ u.unc.typeID = 2) : unconvertXs [] [] xyza unc x s n = unconvertXs ws us xyza unc x s n := by
  unfold unconvertXs
  refine bind_congr fun N_cov => bind_congr fun n_uS => bind_congr fun rows => mapM_congr' fun c _ => ?_
  refine bind_congr fun im => bind_congr fun ib => bind_congr fun nb => ?_
  cases hu : pyGet unc im with
  | error e => rfl
  | ok u =>
    have hm := List.mem_of_getElem? (pyGet_ok.1 hu)
    have := h u hm
    have e : ∀ last v, unconvBlock [] [] last n_uS xyza u v = unconvBlock ws us last n_uS xyza u v := by
      intro last v
      unfold unconvBlock
      cases hc : u.unc <;> simp [hc, Unc.typeID] at this ⊢
    simp only [bind, Except.bind, e]

theorem PC.calcR_eq {p : PC α δ} (h : ∀ u ∈ p.hd.mu.unc, u.unc.typeID = 1 ∨ u.unc.typeID = 2) (xt al : Option (List α)) (t : Option (List δ)) (s n : Nat) :
    p.gn.calcR xt al t s n = p.asGN.calcR xt al t s n := by
  unfold GN.calcR PC.gn PC.asGN
  refine bind_congr fun name => bind_congr fun c => bind_congr fun labels => bind_congr fun a => ?_
  rw [unconvertXs_noW h]

/-! ### Diagonal matrices -/

theorem entry_npDiag {v : List α} {i j : Nat} (hi : i < v.length) (hj : j < v.length) : entry (npDiag v) i j = if i = j then ent v i else 0 := by
  simp [entry, npDiag, List.getD, hi, hj]

theorem npDiag_square {v : List α} {k : Nat} (h : v.length = k) : IsSquare (npDiag v) k := by
  subst h; exact ⟨by simp [npDiag], by simp [npDiag]⟩

theorem scaledDiag_eq {s : α} {v uR uK : List α} {k : Nat} (hv : v.length = k) (hR : uR.length = k) (hK : uK.length = k) :
    scaledDiag s v uR uK = .ok (npDiag (vector k fun i => s * ent v i * ent uR i / ent uK i)) := by
  unfold scaledDiag npDiag
  rw [mapM_ok_of (g := fun r => vector k fun j => ent r j * ent uR j / ent uK j)]
  · congr 1
    rw [List.map_map, List.map_map, hv, vector_length]
    apply List.map_congr_left
    intro i hi
    have hi' := List.mem_range.1 hi
    apply vector_congr
    intro j hj
    have e : ent (List.map (s * ·) (List.map (fun j => if i = j then v.getD i 0 else 0) (List.range k))) j = if i = j then s * ent v i else 0 := by
      rw [ent_map_mul]
      have : ent (List.map (fun j => if i = j then v.getD i 0 else 0) (List.range k)) j = if i = j then v.getD i 0 else 0 := by
        simp [ent, List.getD, hj]
      rw [this]; split <;> simp
    rw [e]
    by_cases hij : i = j
    · subst hij; simp only [if_true]; exact (ent_vector (f := fun i => s * ent v i * ent uR i / ent uK i) hi').symm
    · simp [hij]
  · intro r hr
    obtain ⟨q, hq, rfl⟩ := List.mem_map.1 hr
    obtain ⟨i, _, rfl⟩ := List.mem_map.1 hq
    have hl : (List.map (s * ·) (List.map (fun j => if i = j then v.getD i 0 else 0) (List.range v.length))).length = k := by simp [hv]
    rw [npZip_ent hl hR]
    simp only [bind, Except.bind]
    rw [npZip_ent (vector_length _ _) hK]
    congr 1
    apply vector_congr
    intro j hj
    rw [ent_vector hj]

theorem npGram_diag {d : List α} {k : Nat} (hd : d.length = k) : npGram (npDiag d) = .ok (npDiag (vector k fun i => ent d i * ent d i)) := by
  unfold npGram
  have hrow : ∀ i, i < k → (vector k fun j => if i = j then ent d i else 0 : List α) ∈ npDiag d := by
    intro i hi; unfold npDiag; rw [hd]; exact List.mem_map.2 ⟨i, List.mem_range.2 hi, rfl⟩
  have key : ∀ i i', i < k → i' < k → npDot (vector k fun j => if i = j then ent d i else 0) (vector k fun j => if i' = j then ent d i' else 0) =
      .ok (if i = i' then ent d i * ent d i else 0) := by
    intro i i' hi hi'
    rw [npDot_vector (n := k) (vector_length _ _) (vector_length _ _)]
    congr 1
    rw [sum_congr rfl fun j hj => by rw [ent_vector (Finset.mem_range.1 hj), ent_vector (Finset.mem_range.1 hj)]]
    by_cases h : i = i'
    · subst h
      rw [if_pos rfl]
      simp only [mul_ite, ite_mul, zero_mul, mul_zero]
      rw [sum_congr rfl (g := fun j => if i = j then ent d i * ent d i else 0) (fun j _ => by split <;> simp)]
      rw [Finset.sum_ite_eq (Finset.range k) i fun _ => ent d i * ent d i]
      simp [hi]
    · rw [if_neg h]
      apply Finset.sum_eq_zero
      intro j _
      by_cases h1 : i = j
      · subst h1; simp [Ne.symm h]
      · simp [h1]
  unfold npDiag
  rw [hd, vector_length]
  rw [List.mapM_map]
  rw [mapM_ok_of (g := fun i => vector k fun j => if i = j then ent d i * ent d i else 0)]
  · congr 1
    apply List.map_congr_left
    intro i hi
    apply vector_congr
    intro j hj
    split
    · exact (ent_vector (f := fun i => ent d i * ent d i) (List.mem_range.1 hi)).symm
    · rfl
  · intro i hi
    have hi' := List.mem_range.1 hi
    simp only [Function.comp]
    rw [List.mapM_map]
    rw [mapM_ok_of (g := fun j => if i = j then ent d i * ent d i else 0)]
    · rfl
    · intro j hj
      exact key i j hi' (List.mem_range.1 hj)

/-- Adding a square matrix of the size of the window always succeeds. -/
theorem addWindow_total {V G : List (List α)} {n a k : Nat} (hV : IsSquare V n) (hG : IsSquare G k) (hk : a + k ≤ n) :
    ∃ V', addWindow V a (a + k) G = .ok V' ∧ IsSquare V' n ∧ ∀ i j, i < n → j < n → entry V' i j = entry V i j +
      if (a ≤ i ∧ i < a + k) ∧ (a ≤ j ∧ j < a + k) then entry G (i - a) (j - a) else 0 := by
  have hsl : (slice V a (a + k)).length = k := by simp [slice, hV.1]; omega
  have hmem : ∀ r ∈ slice V a (a + k), r.length = n := fun r hr => hV.2 r (List.mem_of_mem_drop (List.mem_of_mem_take hr))
  have hrl : ∀ r : List α, r.length = n → (slice r a (a + k)).length = k := by intro r hr; simp [slice, hr]; omega
  obtain ⟨V', hV'⟩ : ∃ V', addWindow V a (a + k) G = .ok V' := by
    have h1 : matAdd ((slice V a (a + k)).map fun r => slice r a (a + k)) G = .ok ((((slice V a (a + k)).map fun r => slice r a (a + k)).zip G).map fun p => List.zipWith (· + ·) p.1 p.2) := by
      unfold matAdd
      rw [if_pos (by rw [List.length_map, hsl, hG.1])]
      refine mapM_ok_of fun q hq => npZip_eq ?_
      obtain ⟨h1, h2⟩ := List.of_mem_zip hq
      obtain ⟨r, hr, he⟩ := List.mem_map.1 h1
      rw [← he, hrl r (hmem r hr), hG.2 _ h2]
    have hSr : ∀ r ∈ (((slice V a (a + k)).map fun r => slice r a (a + k)).zip G).map (fun p => List.zipWith (· + ·) p.1 p.2), r.length = k := by
      intro r hr
      obtain ⟨q, hq, rfl⟩ := List.mem_map.1 hr
      obtain ⟨h1, h2⟩ := List.of_mem_zip hq
      obtain ⟨r, hr, he⟩ := List.mem_map.1 h1
      rw [List.length_zipWith, ← he, hrl r (hmem r hr), hG.2 _ h2, Nat.min_self]
    unfold addWindow
    rw [h1]
    generalize (((slice V a (a + k)).map fun r => slice r a (a + k)).zip G).map (fun p => List.zipWith (· + ·) p.1 p.2) = S at h1 hSr
    have hSl : S.length = k := by
      have := congrArg List.length (Except.ok.inj (h1.symm.trans h1))
      have h2 : ∀ {A B C : List (List α)}, A.length = k → B.length = k → matAdd A B = .ok C → C.length = k := by
        intro A B C hA hB hC
        unfold matAdd at hC
        rw [if_pos (by omega)] at hC
        rw [(mapM_ok_get hC).1]; simp [hA, hB]
      exact h2 (by rw [List.length_map, hsl]) hG.1 h1
    simp only [bind, Except.bind]
    rw [if_pos (by rw [hSl, hsl])]
    rw [mapM_ok_of (g := fun p : List α × List α => p.1.take a ++ p.2 ++ p.1.drop (a + k))]
    · simp only []
      refine ⟨_, setSlice_eq (by omega) (by rw [hV.1]; exact hk) ?_⟩
      simp [hsl, hSl]
    · intro q hq
      obtain ⟨h1, h2⟩ := List.of_mem_zip hq
      exact setSlice_eq (by omega) (by rw [hmem _ h1]; exact hk) (by rw [hSr _ h2]; omega)
  obtain ⟨k', hk', _, hsq, he⟩ := addWindow_entry hV hG hV'
  obtain rfl : k' = k := by omega
  refine ⟨V', hV', hsq, fun i j hi hj => ?_⟩
  rw [he i j hi hj, if_pos rfl]

/-- One Gram update with a diagonal matrix. -/
theorem addWindow_diag {V : List (List α)} {n a k : Nat} {d : List α} (hV : IsSquare V n) (hd : d.length = k) (hk : a + k ≤ n) :
    ∃ V', addWindow V a (a + k) (npDiag d) = .ok V' ∧ IsSquare V' n ∧ ∀ i j, i < n → j < n → entry V' i j = entry V i j +
      if i = j ∧ a ≤ i ∧ i < a + k then ent d (i - a) else 0 := by
  obtain ⟨V', h1, h2, h3⟩ := addWindow_total hV (npDiag_square hd) hk
  refine ⟨V', h1, h2, fun i j hi hj => ?_⟩
  rw [h3 i j hi hj]
  congr 1
  by_cases hc : (a ≤ i ∧ i < a + k) ∧ (a ≤ j ∧ j < a + k)
  · rw [if_pos hc, entry_npDiag (by omega) (by omega)]
    by_cases hij : i = j
    · subst hij; simp [hc.1]
    · rw [if_neg (by omega), if_neg (by omega)]
  · rw [if_neg hc, if_neg]
    rintro ⟨rfl, h1, h2⟩
    exact hc ⟨⟨h1, h2⟩, ⟨h1, h2⟩⟩

end
end Verif
