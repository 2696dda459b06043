import Verif.Model.WGen
import Verif.Props.WFile
import Verif.Lemmas.GNVec
import Mathlib.Tactic.Linarith
import Mathlib.Tactic.FieldSimp
import Mathlib.Tactic.Ring
import Mathlib.Tactic.NormNum
import Mathlib.Tactic.Positivity
/-
Lemmas on the rolling-average W matrix: rounding, filling rows, CSR matrices given by their rows.
-/
set_option autoImplicit false
namespace Verif
variable {α : Type}

/-! ### Rounding -/
section
variable [Field α] [LinearOrder α] [IsStrictOrderedRing α] [FloorRing α]

theorem pyRound_near (x : α) : |(pyRound x : α) - x| ≤ 1 / 2 := by
  unfold pyRound
  split
  · have h1 := Int.floor_le (x + 1 / 2)
    have h2 := Int.lt_floor_add_one (x + 1 / 2)
    rw [abs_le]; constructor <;> linarith
  · have h1 := Int.floor_le (-x + 1 / 2)
    have h2 := Int.lt_floor_add_one (-x + 1 / 2)
    push_cast
    rw [abs_le]; constructor <;> linarith

theorem pyRound_eq {x : α} {n : Int} (h : |x - n| < 1 / 2) : pyRound x = n := by
  have h1 := pyRound_near x
  have h2 : |((pyRound x - n : Int) : α)| < ((1 : Int) : α) := by
    push_cast
    calc |(pyRound x : α) - n| = |((pyRound x : α) - x) + (x - n)| := by congr 1; ring
      _ ≤ _ := abs_add_le _ _
      _ < 1 := by linarith
  rw [← Int.cast_abs, Int.cast_lt] at h2
  have := abs_lt.1 h2
  omega

theorem pyRound2_near (x : α) : |pyRound2 x - x| ≤ 1 / 200 := by
  have h := abs_le.1 (pyRound_near (100 * x))
  unfold pyRound2
  rw [abs_le]
  constructor <;> linarith [h.1, h.2]

/-- For scan lines longer than 0.01 the intermediate rounding changes nothing. -/
theorem scanlinePos_eq {s t0 t : α} (hs : 1 / 100 < s) : scanlinePos s t0 t = .ok (pyRound ((t - t0) / s)) := by
  have hs0 : 0 < s := by linarith
  unfold scanlinePos
  rw [if_neg hs0.ne']
  congr 1
  apply pyRound_eq
  set n := pyRound ((t - t0) / s)
  have h := pyRound2_near (s * (n : α))
  have e : pyRound2 (s * (n : α)) / s - n = (pyRound2 (s * (n : α)) - s * n) / s := by field_simp
  rw [e, abs_div, abs_of_pos hs0, div_lt_iff₀ hs0]
  linarith

theorem pyRound_zero : pyRound (0 : α) = 0 := by
  apply pyRound_eq; simp

theorem relativePositions_eq {s : α} (hs : 1 / 100 < s) (t0 : α) (ts : List α) :
    relativePositions s (t0 :: ts) = .ok ((t0 :: ts).map fun t => pyRound ((t - t0) / s)) := by
  have e : ts.mapM (scanlinePos s t0) = .ok (ts.map fun t => pyRound ((t - t0) / s)) := mapM_ok_of fun t _ => scanlinePos_eq hs
  simp only [relativePositions, e]
  simp [bind, Except.bind, pure, Except.pure, pyRound_zero]

end

theorem minInt_ok {l : List Int} (h : l ≠ []) : ∃ m, minInt l = .ok m ∧ m ∈ l ∧ ∀ x ∈ l, m ≤ x := by
  obtain ⟨x, xs, rfl⟩ := List.exists_cons_of_ne_nil h
  have key : ∀ (xs : List Int) (x : Int), (xs.foldl min x ∈ x :: xs) ∧ ∀ y ∈ x :: xs, xs.foldl min x ≤ y := by
    intro xs
    induction xs with
    | nil => intro x; simp
    | cons y ys ih =>
      intro x
      obtain ⟨h1, h2⟩ := ih (min x y)
      have h3 := h2 (min x y) (by simp)
      constructor
      · rcases List.mem_cons.1 h1 with h | h
        · rw [List.foldl_cons, h]
          rcases min_choice x y with e | e <;> rw [e] <;> simp
        · simp [h]
      · intro z hz
        simp only [List.foldl_cons]
        rcases List.mem_cons.1 hz with rfl | hz
        · omega
        rcases List.mem_cons.1 hz with rfl | hz
        · omega
        · exact h2 z (by simp [hz])
  exact ⟨_, rfl, key xs x⟩

/-! ### Filling -/

theorem fillKernel_ok {β : Type} [Zero β] {k : Nat} {rows : List (List β)} (h : ∀ r ∈ rows, r.length = k) :
    fillKernel k rows = .ok rows.flatten := by
  have key : ∀ (rest : List (List β)) (i : Nat) (out : List β), (∀ r ∈ rest, r.length = k) → out.length = (i + rest.length) * k →
      (rest.zipIdx i).foldlM (fun out p => setSlice out (p.2 * k) (p.2 * k + k) p.1) out = (.ok (out.take (i * k) ++ rest.flatten) : Py _) := by
    intro rest
    induction rest with
    | nil =>
      intro i out _ ho
      simp only [List.length_nil, Nat.add_zero] at ho
      simp [pure, Except.pure, ← ho]
    | cons p rest ih =>
      intro i out hl ho
      have hp := hl p (by simp)
      simp only [List.length_cons] at ho
      have e1 : (i + (rest.length + 1)) * k = i * k + k + rest.length * k := by ring
      simp only [List.zipIdx_cons, List.foldlM_cons]
      refine bind_ok.2 ⟨_, setSlice_eq (by omega) (by omega) (by omega), ?_⟩
      rw [ih _ _ (fun r hr => hl r (by simp [hr])) (by simp [hp]; rw [ho]; ring_nf; omega)]
      simp only [List.flatten_cons]
      congr 1
      have h1 : (out.take (i * k)).length = i * k := by simp; omega
      have e2 : (i + 1) * k = i * k + k := by ring
      rw [e2, List.take_append_of_le_length (by simp [h1, hp]), List.take_of_length_le (by simp [h1, hp]), List.append_assoc]
  unfold fillKernel
  rw [key rows 0 _ h (by simp)]
  simp

/-! ### CSR matrices given by their rows -/

/-- The CSR structure storing the given rows of (column, value) pairs. -/
def csrOfRows (rows : List (List (Nat × α))) (ncols : Nat) : CSR α :=
  { data := rows.flatten.map (·.2), indices := rows.flatten.map (·.1), indptr := prefixSums (rows.map List.length), nrows := rows.length, ncols := ncols }

theorem csrOfRows_rowEntries {rows : List (List (Nat × α))} {ncols i : Nat} {r : List (Nat × α)} (h : rows[i]? = some r) :
    (csrOfRows rows ncols).rowEntries i = r := by
  have hi : i < rows.length := (List.getElem?_eq_some_iff.1 h).1
  have e1 : (prefixSums (rows.map List.length)).getD i 0 = ((rows.map List.length).take i).sum := by
    rw [List.getD_eq_getElem?_getD, prefixSums_getElem?_of_le _ (by simp; omega)]; rfl
  have e2 : (prefixSums (rows.map List.length)).getD (i + 1) 0 = ((rows.map List.length).take (i + 1)).sum := by
    rw [List.getD_eq_getElem?_getD, prefixSums_getElem?_of_le _ (by simp; omega)]; rfl
  unfold CSR.rowEntries csrOfRows
  simp only [e1, e2]
  have m1 : (rows.map List.length) = ((rows.map (List.map (·.1))).map List.length) := by simp [Function.comp_def]
  have m2 : (rows.map List.length) = ((rows.map (List.map (·.2))).map List.length) := by simp [Function.comp_def]
  have f1 : slice (rows.flatten.map (·.1)) ((rows.map List.length).take i).sum ((rows.map List.length).take (i + 1)).sum = r.map (·.1) := by
    rw [List.map_flatten, m1]; exact slice_flatten _ (by simp [h])
  have f2 : slice (rows.flatten.map (·.2)) ((rows.map List.length).take i).sum ((rows.map List.length).take (i + 1)).sum = r.map (·.2) := by
    rw [List.map_flatten, m2]; exact slice_flatten _ (by simp [h])
  rw [f1, f2, List.zip_map', List.map_id' ]

theorem csrOfRows_shape {rows : List (List (Nat × α))} {ncols : Nat} (h : ∀ r ∈ rows, ∀ e ∈ r, e.1 < ncols) : (csrOfRows rows ncols).Shape := by
  refine ⟨by simp [csrOfRows], by simp only [csrOfRows, List.length_map], ?_⟩
  intro c hc
  simp only [csrOfRows, List.mem_map, List.mem_flatten] at hc
  obtain ⟨e, ⟨r, hr, he⟩, rfl⟩ := hc
  exact h r hr e he

theorem csrOfRows_wellFormed (rows : List (List (Nat × α))) (ncols : Nat) : (csrOfRows rows ncols).WellFormed := by
  refine ⟨by simp [csrOfRows], ?_, ?_, by simp only [csrOfRows, List.length_map]⟩
  · simp only [csrOfRows]
    rw [prefixSums_getElem?_of_le _ (by simp)]; rfl
  · simp only [csrOfRows, prefixSums_getLast, List.length_map, List.length_flatten]

/-- Constant row pointers are prefix sums. -/
theorem pointers_eq (n k : Nat) : (List.range (n + 1)).map (· * k) = prefixSums (List.replicate n k) := by
  apply List.ext_getElem?
  intro i
  by_cases hi : i ≤ n
  · rw [prefixSums_getElem?_of_le _ (by simpa using hi)]
    simp [Nat.lt_succ_of_le hi, Nat.min_eq_left hi]
  · rw [List.getElem?_eq_none (by simp; omega), List.getElem?_eq_none (by simp; omega)]

/-- The rows of the matrix before columns are removed. -/
def rollingRows (pos : List Nat) (k : Nat) (rows : List (List α)) : List (List (Nat × α)) :=
  (pos.zip rows).map fun pr => (List.range' pr.1 k).zip pr.2

theorem rollingRows_get {pos : List Nat} {k : Nat} {rows : List (List α)} {i p : Nat} {r : List α} (hp : pos[i]? = some p) (hr : rows[i]? = some r) :
    (rollingRows pos k rows)[i]? = some ((List.range' p k).zip r) := by
  have : (pos.zip rows)[i]? = some (p, r) := List.getElem?_zip_eq_some.2 ⟨hp, hr⟩
  simp [rollingRows, this]

theorem rollingRows_length {pos : List Nat} {k : Nat} {rows : List (List α)} (h : rows.length = pos.length) : (rollingRows pos k rows).length = pos.length := by
  simp [rollingRows, h]

theorem zip_flatten_eq {β : Type} : ∀ {as : List (List α)} {bs : List (List β)}, as.length = bs.length → (∀ (i : Nat) (a : List α) (b : List β), as[i]? = some a → bs[i]? = some b → a.length = b.length) →
    ((as.zip bs).map fun p => p.1.zip p.2).flatten = as.flatten.zip bs.flatten
  | [], [], _, _ => rfl
  | a :: as, b :: bs, h, hl => by
    have e := zip_flatten_eq (as := as) (bs := bs) (by simpa using h) (fun i a b ha hb => hl (i + 1) a b (by simpa using ha) (by simpa using hb))
    have h0 := hl 0 a b rfl rfl
    simp only [List.zip_cons_cons, List.map_cons, List.flatten_cons, e]
    rw [List.zip_append h0]

/-- The sparse matrix before columns are removed stores the kernel of every match-up from its position on. -/
theorem rollingCSR_ok [Field α] {pos : List Nat} {k : Nat} {rows : List (List α)} (hne : pos ≠ []) (hk : 0 < k) (hl : rows.length = pos.length)
    (hr : ∀ r ∈ rows, r.length = k) : ∃ n, rollingCSR pos k rows = .ok (csrOfRows (rollingRows pos k rows) n) ∧ (∀ p ∈ pos, p + k ≤ n) ∧
      ∀ rows' : List (List α), rows'.length = pos.length → (∀ r ∈ rows', r.length = k) → rollingCSR pos k rows' = .ok (csrOfRows (rollingRows pos k rows') n) := by
  have e1 := fillKernel_ok (rows := pos.map fun p => List.range' p k) (k := k) (by simp)
  obtain ⟨p0, ps, rfl⟩ := List.exists_cons_of_ne_nil hne
  obtain ⟨k', rfl⟩ : ∃ k', k = k' + 1 := ⟨k - 1, by omega⟩
  generalize hJ : (((p0 :: ps).map fun p => List.range' p (k' + 1))).flatten = J at e1
  obtain ⟨m, hm⟩ : ∃ m, pyMax J = .ok m := by
    rw [← hJ]; simp only [List.map_cons, List.flatten_cons, List.range'_succ, List.cons_append, pyMax]; exact ⟨_, rfl⟩
  obtain ⟨hm1, hm2⟩ := pyMax_ok hm
  have hmem : ∀ p ∈ p0 :: ps, p + k' ≤ m := by
    intro p hp
    apply hm1
    rw [← hJ]
    exact List.mem_flatten.2 ⟨_, List.mem_map.2 ⟨p, hp, rfl⟩, by simp⟩
  have key : ∀ rows' : List (List α), rows'.length = (p0 :: ps).length → (∀ r ∈ rows', r.length = k' + 1) →
      rollingCSR (p0 :: ps) (k' + 1) rows' = .ok (csrOfRows (rollingRows (p0 :: ps) (k' + 1) rows') (m + 1)) := by
    intro rows' hl' hr'
    have e2 := fillKernel_ok hr'
    unfold rollingCSR
    refine bind_ok.2 ⟨_, e1, bind_ok.2 ⟨_, e2, bind_ok.2 ⟨_, hm, ?_⟩⟩⟩
    have hlen : rows'.flatten.length = (p0 :: ps).length * (k' + 1) := by
      rw [List.length_flatten, List.map_congr_left (g := fun _ => k' + 1) hr']
      simp [hl']
    have hlenJ : J.length = (p0 :: ps).length * (k' + 1) := by
      rw [← hJ, List.length_flatten]; simp [Function.comp_def]; ring
    have hz := zip_flatten_eq (as := (p0 :: ps).map fun p => List.range' p (k' + 1)) (bs := rows') (by simpa using hl'.symm) (by
      intro i a b ha hb
      obtain ⟨p, _, rfl⟩ := List.mem_map.1 (List.mem_of_getElem? ha)
      simp [hr' b (List.mem_of_getElem? hb)])
    rw [hJ] at hz
    have hrr : (rollingRows (p0 :: ps) (k' + 1) rows').flatten = J.zip rows'.flatten := by
      rw [← hz, rollingRows, List.zip_map_left, List.map_map]; rfl
    have hlr : (rollingRows (p0 :: ps) (k' + 1) rows').map List.length = List.replicate (p0 :: ps).length (k' + 1) := by
      apply List.eq_replicate_iff.2
      refine ⟨by simp [rollingRows, hl'], ?_⟩
      intro x hx
      simp only [rollingRows, List.map_map, List.mem_map] at hx
      obtain ⟨pr, hpr, rfl⟩ := hx
      have := hr' pr.2 (List.of_mem_zip hpr).2
      simp [this]
    unfold mkCSR
    have h0 : ((List.range ((p0 :: ps).length + 1)).map (· * (k' + 1)))[0]? = some 0 := by simp [List.range_succ_eq_map]
    have hL : ((List.range ((p0 :: ps).length + 1)).map (· * (k' + 1))).getLast? = some ((p0 :: ps).length * (k' + 1)) := by
      rw [List.range_succ, List.map_append]; simp
    rw [h0, hL]
    simp only
    rw [if_pos ⟨trivial, by omega, by omega, by simp, by simpa using fun x hx => Nat.lt_succ_of_le (hm1 x hx)⟩]
    congr 1
    unfold csrOfRows
    rw [hlr, hrr, ← pointers_eq, List.take_of_length_le (by omega), List.take_of_length_le (by omega), List.map_fst_zip (by omega), List.map_snd_zip (by omega)]
    congr 1
    simp [rollingRows, hl']
  exact ⟨m + 1, key rows hl hr, fun p hp => by have := hmem p hp; omega, key⟩

end Verif
