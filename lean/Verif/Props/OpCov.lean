import Verif.Props.Op
import Verif.Props.ResultRound
import Mathlib.Data.Nat.Sqrt
/-
Property C53: separately computed elements of the parameter covariance matrix are combined.
-/
set_option autoImplicit false
namespace Verif

variable {α : Type} [Field α]

/-- Specification: one file per element of an `n` by `n` matrix `v`, named as the element solver names it. -/
def elementFiles (dir : List Char) (n : Nat) (v : Nat → Nat → α) : List (List Char × α) :=
  (List.range n).flatMap fun i => (List.range n).map fun j => (elementPath dir i j, v i j)

theorem repr_digit {i : Nat} (h : i < 10) : i.repr.toList = [Char.ofNat (48 + i)] := by
  interval_cases i <;> decide +kernel

theorem intOfChar_digit {i : Nat} (h : i < 10) : intOfChar (Char.ofNat (48 + i)) = .ok i := by
  interval_cases i <;> decide +kernel

theorem place_small {m : List (List α)} {dir : List Char} {i j : Nat} (hi : i < 10) (hj : j < 10) (x : α) :
    placeElement m (elementPath dir i j, x) = setEntry m i j x := by
  have hs : (elementPath dir i j).reverse = ['t', 'a', 'd', '.', ']', Char.ofNat (48 + j), ',', Char.ofNat (48 + i)] ++ (dir ++ "/parameter_covariance_matrix[".toList).reverse := by
    unfold elementPath
    rw [repr_digit hi, repr_digit hj]
    have : "].dat".toList = [']', '.', 'd', 'a', 't'] := by decide +kernel
    rw [this]
    have : ",".toList = [','] := by decide +kernel
    rw [this]
    simp
  unfold placeElement charFromEnd
  simp only [hs]
  have e8 : pyGet (['t', 'a', 'd', '.', ']', Char.ofNat (48 + j), ',', Char.ofNat (48 + i)] ++ (dir ++ "/parameter_covariance_matrix[".toList).reverse) (8 - 1) = .ok (Char.ofNat (48 + i)) := rfl
  have e6 : pyGet (['t', 'a', 'd', '.', ']', Char.ofNat (48 + j), ',', Char.ofNat (48 + i)] ++ (dir ++ "/parameter_covariance_matrix[".toList).reverse) (6 - 1) = .ok (Char.ofNat (48 + j)) := rfl
  rw [e8, e6]
  simp only [ok_bind', intOfChar_digit hi, intOfChar_digit hj]

/-- An n by n array. -/
def Square (n : Nat) (m : List (List α)) : Prop := m.length = n ∧ ∀ r ∈ m, r.length = n

theorem setEntry_ok {n : Nat} {m : List (List α)} (hm : Square n m) {i j : Nat} (hi : i < n) (hj : j < n) (x : α) :
    ∃ m', setEntry m i j x = .ok m' ∧ Square n m' ∧ ∀ a b, (m'.getD a []).getD b 0 = if a = i ∧ b = j then x else (m.getD a []).getD b 0 := by
  have hi' : i < m.length := by rw [hm.1]; exact hi
  have hr : (m[i]).length = n := hm.2 _ (List.getElem_mem hi')
  unfold setEntry
  rw [List.getElem?_eq_getElem hi']
  simp only [hr, if_pos hj]
  refine ⟨_, rfl, ⟨by simpa using hm.1, ?_⟩, ?_⟩
  · intro r hmem
    rcases List.mem_or_eq_of_mem_set hmem with h | h
    · exact hm.2 r h
    · rw [h]; simpa using hr
  · intro a b
    simp only [List.getD_eq_getElem?_getD, List.getElem?_set]
    by_cases ha : a = i
    · subst ha
      rw [if_pos rfl, if_pos hi']
      simp only [Option.getD_some, List.getElem?_set, hr]
      by_cases hb : b = j
      · subst hb; simp [hj]
      · rw [if_neg (Ne.symm hb), if_neg (by tauto), List.getElem?_eq_getElem hi']; rfl
    · rw [if_neg (Ne.symm ha), if_neg (by tauto)]

theorem place_fold {n : Nat} : ∀ (l : List ((Nat × Nat) × α)) {m : List (List α)}, Square n m → (∀ e ∈ l, e.1.1 < n ∧ e.1.2 < n) → (l.map (·.1)).Nodup →
    ∃ m', l.foldlM (fun (m : List (List α)) e => setEntry m e.1.1 e.1.2 e.2) m = .ok m' ∧ Square n m' ∧
      (∀ e ∈ l, (m'.getD e.1.1 []).getD e.1.2 0 = e.2) ∧ ∀ a b, (∀ e ∈ l, e.1 ≠ (a, b)) → (m'.getD a []).getD b 0 = (m.getD a []).getD b 0
  | [], m, hm, _, _ => ⟨m, rfl, hm, by simp, by simp⟩
  | e :: l, m, hm, hr, hn => by
    obtain ⟨m1, h1, h2, h3⟩ := setEntry_ok hm (hr e (by simp)).1 (hr e (by simp)).2 e.2
    rw [List.map_cons, List.nodup_cons] at hn
    obtain ⟨m', h4, h5, h6, h7⟩ := place_fold l h2 (fun e' he' => hr e' (by simp [he'])) hn.2
    refine ⟨m', ?_, h5, ?_, ?_⟩
    · rw [List.foldlM_cons, h1]; exact h4
    · intro e' he'
      rcases List.mem_cons.1 he' with rfl | he'
      · rw [h7 e'.1.1 e'.1.2, h3, if_pos ⟨rfl, rfl⟩]
        intro e2 he2 h
        exact hn.1 (List.mem_map.2 ⟨e2, he2, h⟩)
      · exact h6 e' he'
    · intro a b hab
      rw [h7 a b (fun e' he' => hab e' (by simp [he'])), h3, if_neg]
      rintro ⟨rfl, rfl⟩
      exact hab e (by simp) rfl

theorem elementFiles_length (dir : List Char) (n : Nat) (v : Nat → Nat → α) : (elementFiles dir n v).length = n * n := by
  unfold elementFiles
  simp [List.length_flatMap]

theorem foldlM_map' {β γ δ : Type} (f : β → γ) (g : δ → γ → Py δ) : ∀ (l : List β) (d : δ), (l.map f).foldlM g d = l.foldlM (fun d b => g d (f b)) d
  | [], _ => rfl
  | b :: l, d => by
    rw [List.map_cons, List.foldlM_cons, List.foldlM_cons]
    congr 1
    exact funext fun x => foldlM_map' f g l x

theorem foldlM_congr' {β δ : Type} {g h : δ → β → Py δ} : ∀ (l : List β) (d : δ), (∀ d, ∀ b ∈ l, g d b = h d b) → l.foldlM g d = l.foldlM h d
  | [], _, _ => rfl
  | b :: l, d, hl => by
    rw [List.foldlM_cons, List.foldlM_cons, hl d b (by simp)]
    congr 1
    exact funext fun x => foldlM_congr' l x fun d b hb => hl d b (by simp [hb])

/-- **C53.** With at most ten parameters, whatever the order in which the files are found, the combined matrix holds each element (averaged with the
one opposite) in its place. -/
theorem C53_small_partial {n : Nat} (hn : n ≤ 10) (dir : List Char) (v : Nat → Nat → α) {files : List (List Char × α)} (hf : files.Perm (elementFiles dir n v)) :
    combineCovariance files = .ok ((List.range n).map fun i => (List.range n).map fun j => (v i j + v j i) / 2) := by
  have hlen : Nat.sqrt files.length = n := by rw [hf.length_eq, elementFiles_length, Nat.sqrt_eq]
  -- the files as indexed elements
  let keys : List ((Nat × Nat) × α) := (List.range n).flatMap fun i => (List.range n).map fun j => ((i, j), v i j)
  have hk : elementFiles dir n v = keys.map fun e => (elementPath dir e.1.1 e.1.2, e.2) := by
    simp only [elementFiles, keys, List.map_flatMap, List.map_map]; rfl
  have hmem : ∀ e ∈ keys, e.1.1 < n ∧ e.1.2 < n ∧ e.2 = v e.1.1 e.1.2 := by
    intro e he
    simp only [keys, List.mem_flatMap, List.mem_map, List.mem_range] at he
    obtain ⟨i, hi, j, hj, rfl⟩ := he
    exact ⟨hi, hj, rfl⟩
  have hnd : (keys.map (·.1)).Nodup := by
    have : keys.map (·.1) = (List.range n).flatMap fun i => (List.range n).map fun j => (i, j) := by
      simp only [keys, List.map_flatMap, List.map_map]; rfl
    rw [this, List.nodup_flatMap]
    refine ⟨fun i _ => List.Nodup.map (fun a b h => by simpa using h) List.nodup_range, ?_⟩
    refine List.Nodup.pairwise_of_forall_ne List.nodup_range fun i _ i' _ hii' => ?_
    simp only [Function.onFun, List.disjoint_left, List.mem_map]
    rintro _ ⟨j, _, rfl⟩ ⟨j', _, h⟩
    exact hii' (by simpa using (congrArg Prod.fst h).symm)
  rw [hk] at hf
  obtain ⟨ks, hp, he⟩ : ∃ ks : List ((Nat × Nat) × α), ks.Perm keys ∧ files = ks.map fun e => (elementPath dir e.1.1 e.1.2, e.2) := by
    obtain ⟨ks, h1, h2⟩ := perm_map_lift _ _ _ hf
    exact ⟨ks, h1, h2.symm⟩
  have hmem' : ∀ e ∈ ks, e.1.1 < n ∧ e.1.2 < n ∧ e.2 = v e.1.1 e.1.2 := fun e h => hmem e (hp.mem_iff.1 h)
  have hsq : Square n (List.replicate n (List.replicate n (0 : α))) := ⟨by simp, fun r hr => by rw [List.eq_of_mem_replicate hr]; simp⟩
  obtain ⟨m', h1, h2, h3, _⟩ := place_fold ks hsq (fun e h => ⟨(hmem' e h).1, (hmem' e h).2.1⟩) ((hp.map _).nodup_iff.2 hnd)
  have hfold : files.foldlM placeElement (List.replicate n (List.replicate n (0 : α))) = .ok m' := by
    rw [he, foldlM_map', ← h1]
    refine foldlM_congr' ks _ fun d b hb => ?_
    have := hmem' b hb
    exact place_small (by omega) (by omega) _
  have hent : ∀ i j, i < n → j < n → (m'.getD i []).getD j 0 = v i j := by
    intro i j hi hj
    have hin : ((i, j), v i j) ∈ ks := by
      rw [hp.mem_iff]
      simp only [keys, List.mem_flatMap, List.mem_map, List.mem_range]
      exact ⟨i, hi, j, hj, rfl⟩
    exact h3 _ hin
  unfold combineCovariance
  simp only [hlen, hfold]
  rw [ok_bind']
  congr 1
  unfold symmetrise
  refine List.map_congr_left fun i hi => List.map_congr_left fun j hj => ?_
  rw [List.mem_range] at hi hj
  rw [hent i j hi hj, hent j i hj hi]

/-- **C53.** For a symmetric matrix that is the matrix itself. -/
theorem C53_symmetric_partial [CharZero α] {n : Nat} (hn : n ≤ 10) (dir : List Char) {v : Nat → Nat → α} (hv : ∀ i j, v i j = v j i)
    {files : List (List Char × α)} (hf : files.Perm (elementFiles dir n v)) :
    combineCovariance files = .ok ((List.range n).map fun i => (List.range n).map fun j => v i j) := by
  rw [C53_small_partial hn dir v hf]
  congr 1
  refine List.map_congr_left fun i _ => List.map_congr_left fun j _ => ?_
  rw [← hv i j, ← two_mul, mul_div_cancel_left₀ _ two_ne_zero]

theorem foldlM_error_mem {β δ : Type} {g : δ → β → Py δ} {b : β} (hb : ∀ d, ∃ e, g d b = .error e) : ∀ (l : List β) (d : δ), b ∈ l → ∃ e, l.foldlM g d = .error e
  | [], _, h => by simp at h
  | a :: l, d, h => by
    rw [List.foldlM_cons]
    rcases List.mem_cons.1 h with rfl | h
    · obtain ⟨e, he⟩ := hb d; exact ⟨e, by rw [he]; rfl⟩
    · cases hg : g d a with
      | error e => exact ⟨e, rfl⟩
      | ok d' => exact foldlM_error_mem hb l d' h

/-- **C53 is false of the code** with eleven or more parameters: the complete set of element files cannot be combined, in any order. -/
theorem C53_eleven_fails {n : Nat} (hn : 11 ≤ n) (dir : List Char) (v : Nat → Nat → α) {files : List (List Char × α)} (hf : files.Perm (elementFiles dir n v)) :
    ∃ e, combineCovariance files = .error e := by
  have hin : (elementPath dir 0 10, v 0 10) ∈ files := by
    rw [hf.mem_iff]
    unfold elementFiles
    simp only [List.mem_flatMap, List.mem_map, List.mem_range]
    exact ⟨0, by omega, 10, by omega, rfl⟩
  have hs : (elementPath dir 0 10).reverse = ['t', 'a', 'd', '.', ']', '0', '1', ','] ++ (dir ++ "/parameter_covariance_matrix[".toList ++ ['0']).reverse := by
    unfold elementPath
    have h1 : "].dat".toList = [']', '.', 'd', 'a', 't'] := by decide +kernel
    have h2 : ",".toList = [','] := by decide +kernel
    have h3 : (0 : Nat).repr.toList = ['0'] := by decide +kernel
    have h4 : (10 : Nat).repr.toList = ['1', '0'] := by decide +kernel
    rw [h1, h2, h3, h4]
    simp
  have hbad : ∀ m : List (List α), ∃ e, placeElement m (elementPath dir 0 10, v 0 10) = .error e := by
    intro m
    refine ⟨.valueError, ?_⟩
    unfold placeElement charFromEnd
    simp only [hs]
    have e8 : pyGet (['t', 'a', 'd', '.', ']', '0', '1', ','] ++ (dir ++ "/parameter_covariance_matrix[".toList ++ ['0']).reverse) (8 - 1) = .ok ',' := rfl
    rw [e8]
    rfl
  obtain ⟨e, he⟩ := foldlM_error_mem hbad files (List.replicate (Nat.sqrt files.length) (List.replicate (Nat.sqrt files.length) 0)) hin
  refine ⟨e, ?_⟩
  unfold combineCovariance
  simp only [he]; rfl

theorem C53_case : combineCovariance (elementFiles "t".toList 2 fun i j => if i = j then (4 : ℚ) else 1) = .ok [[4, 1], [1, 4]] := by decide +kernel

end Verif
