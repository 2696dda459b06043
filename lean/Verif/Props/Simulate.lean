import Verif.Model.Simulate
import Verif.Spec.Layout
import Verif.Lemmas.ReaderValues
import Verif.Lemmas.ReaderOpen
import Mathlib.Algebra.Order.Field.Basic
import Mathlib.Algebra.Order.Field.Rat
import Mathlib.Tactic.FieldSimp
import Mathlib.Tactic.Linarith
import Mathlib.Tactic.Positivity
/-
Property C46: simulated match-ups.
-/
set_option autoImplicit false
namespace Verif

/-- `out` is `n` equally spaced points from the least to the greatest value of `l` (the least alone when `n` is one). -/
def Spread {α : Type} [Field α] [LinearOrder α] (l : List α) (n : Nat) (out : List α) : Prop :=
  out.length = n ∧ ∃ lo ∈ l, ∃ hi ∈ l, (∀ v ∈ l, lo ≤ v ∧ v ≤ hi) ∧ (∀ v ∈ out, lo ≤ v ∧ v ≤ hi) ∧
    (∀ v, out.head? = some v → v = lo) ∧ (2 ≤ n → ∀ v, out.getLast? = some v → v = hi) ∧
    ∀ (i : Nat) (v w : α), out[i]? = some v → out[i + 1]? = some w → w - v = (hi - lo) / ((n : α) - 1)

variable {α δ ρ σ : Type} [Field α] [LinearOrder α] [IsStrictOrderedRing α]

theorem foldl_min_facts (l : List α) (x : α) : l.foldl min x ≤ x ∧ (∀ v ∈ l, l.foldl min x ≤ v) ∧ (l.foldl min x = x ∨ l.foldl min x ∈ l) := by
  induction l generalizing x with
  | nil => simp
  | cons a l ih =>
    obtain ⟨h1, h2, h3⟩ := ih (min x a)
    simp only [List.foldl_cons, List.mem_cons]
    refine ⟨h1.trans (min_le_left _ _), ?_, ?_⟩
    · rintro v (rfl | hv)
      · exact h1.trans (min_le_right _ _)
      · exact h2 v hv
    · rcases h3 with h3 | h3
      · rcases min_choice x a with h | h
        · exact .inl (h3.trans h)
        · exact .inr (.inl (h3.trans h))
      · exact .inr (.inr h3)

theorem foldl_max_facts (l : List α) (x : α) : x ≤ l.foldl max x ∧ (∀ v ∈ l, v ≤ l.foldl max x) ∧ (l.foldl max x = x ∨ l.foldl max x ∈ l) := by
  induction l generalizing x with
  | nil => simp
  | cons a l ih =>
    obtain ⟨h1, h2, h3⟩ := ih (max x a)
    simp only [List.foldl_cons, List.mem_cons]
    refine ⟨(le_max_left _ _).trans h1, ?_, ?_⟩
    · rintro v (rfl | hv)
      · exact (le_max_right _ _).trans h1
      · exact h2 v hv
    · rcases h3 with h3 | h3
      · rcases max_choice x a with h | h
        · exact .inl (h3.trans h)
        · exact .inr (.inl (h3.trans h))
      · exact .inr (.inr h3)

omit [LinearOrder α] [IsStrictOrderedRing α] in
theorem linspace_length (lo hi : α) (n : Nat) : (linspace lo hi n).length = n := by simp [linspace]

theorem linspace_get {lo hi : α} {n i : Nat} (hi' : i < n) : (linspace lo hi n)[i]? = some (lo + (i : α) * ((hi - lo) / ((n - 1 : Nat) : α))) := by
  simp only [linspace, List.getElem?_map, List.getElem?_range hi', Option.map_some, Option.some.injEq]
  split
  · rename_i h
    obtain ⟨h1, rfl⟩ := h
    have : ((n - 1 : Nat) : α) ≠ 0 := by
      have : 0 < n - 1 := by omega
      positivity
    field_simp
    ring
  · rfl

theorem spaceFill_ok {l : List α} (hl : l ≠ []) (n : Nat) : ∃ out, spaceFill l n = .ok out ∧ Spread l n out := by
  obtain ⟨a, l, rfl⟩ : ∃ a t, l = a :: t := by cases l with
    | nil => exact absurd rfl hl
    | cons a t => exact ⟨a, t, rfl⟩
  obtain ⟨m1, m2, m3⟩ := foldl_min_facts l a
  obtain ⟨M1, M2, M3⟩ := foldl_max_facts l a
  obtain ⟨lo, hlo⟩ : ∃ lo, lo = l.foldl min a := ⟨_, rfl⟩
  obtain ⟨hi, hhi⟩ : ∃ hi, hi = l.foldl max a := ⟨_, rfl⟩
  rw [← hlo] at m1 m2 m3
  rw [← hhi] at M1 M2 M3
  have hle : lo ≤ hi := m1.trans M1
  refine ⟨linspace lo hi n, by simp only [spaceFill, pyMinOf, pyMaxOf, ← hlo, ← hhi]; rfl, linspace_length _ _ _, lo, ?_, hi, ?_, ?_, ?_, ?_, ?_, ?_⟩
  · rw [List.mem_cons]; exact m3
  · rw [List.mem_cons]; exact M3
  · intro v hv
    rcases List.mem_cons.1 hv with rfl | hv
    · exact ⟨m1, M1⟩
    · exact ⟨m2 v hv, M2 v hv⟩
  · intro v hv
    obtain ⟨i, hv⟩ := List.getElem?_of_mem hv
    have hil : i < n := by have := (List.getElem?_eq_some_iff.1 hv).1; rwa [linspace_length] at this
    rw [linspace_get hil] at hv
    cases hv
    by_cases h1 : n - 1 = 0
    · have : i = 0 := by omega
      simp [this, hle]
    · have hp : (0 : α) < ((n - 1 : Nat) : α) := by
        have : 0 < n - 1 := by omega
        positivity
      have hd : 0 ≤ hi - lo := by linarith
      have hi1 : (i : α) ≤ ((n - 1 : Nat) : α) := by exact_mod_cast (by omega : i ≤ n - 1)
      have e : (i : α) * ((hi - lo) / ((n - 1 : Nat) : α)) = (i : α) / ((n - 1 : Nat) : α) * (hi - lo) := by ring
      have q0 : 0 ≤ (i : α) / ((n - 1 : Nat) : α) := by positivity
      have q1 : (i : α) / ((n - 1 : Nat) : α) ≤ 1 := by rw [div_le_one hp]; exact hi1
      rw [e]
      constructor
      · nlinarith [mul_nonneg q0 hd]
      · nlinarith [mul_le_mul_of_nonneg_right q1 hd]
  · intro v hv
    rw [List.head?_eq_getElem?] at hv
    have hil : 0 < n := by have := (List.getElem?_eq_some_iff.1 hv).1; rwa [linspace_length] at this
    rw [linspace_get hil] at hv
    cases hv; simp
  · intro hn v hv
    rw [List.getLast?_eq_getElem?, linspace_length, linspace_get (by omega)] at hv
    cases hv
    have : ((n - 1 : Nat) : α) ≠ 0 := by
      have : 0 < n - 1 := by omega
      positivity
    field_simp
    ring
  · intro i v w hv hw
    have hil : i + 1 < n := by have := (List.getElem?_eq_some_iff.1 hw).1; rwa [linspace_length] at this
    rw [linspace_get (by omega)] at hv
    rw [linspace_get hil] at hw
    cases hv; cases hw
    have : ((n - 1 : Nat) : α) = (n : α) - 1 := by rw [Nat.cast_sub (by omega)]; simp
    rw [this]; push_cast; ring

/-- The simulation loop: every block becomes the spread of the original block. -/
theorem simulateX_ok {x : List α} {N : List Nat} (hx : x.length = N.sum) (hN : ∀ M ∈ N, 0 < M) (n : Nat) :
    ∃ out : List α, simulateX x (prefixSums N) (prefixSums (N.map fun _ => n)) = .ok out ∧ out.length = (N.map fun _ => n).sum ∧
      ∀ b, b < N.length → Spread (slice x (N.take b).sum (N.take (b + 1)).sum) n
        (slice out ((N.map fun _ => n).take b).sum ((N.map fun _ => n).take (b + 1)).sum) := by
  -- the blocks of the result
  have hblk : ∀ b, b < N.length → ∃ o : List α, spaceFill (slice x (N.take b).sum (N.take (b + 1)).sum) n = .ok o ∧ Spread (slice x (N.take b).sum (N.take (b + 1)).sum) n o := by
    intro b hb
    apply spaceFill_ok
    intro h0
    have hl := congrArg List.length h0
    have e : (N.take (b + 1)).sum = (N.take b).sum + N[b] := by
      rw [List.take_add_one, List.sum_append, List.getElem?_eq_getElem hb]; simp
    have hle : (N.take (b + 1)).sum ≤ x.length := by
      rw [hx]
      conv_rhs => rw [← List.take_append_drop (b + 1) N, List.sum_append]
      omega
    have := hN _ (List.getElem_mem hb)
    simp only [slice, List.length_take, List.length_drop, List.length_nil] at hl
    omega
  choose! o ho1 ho2 using hblk
  let data := (List.range N.length).map o
  have hdl : data.map List.length = N.map fun _ => n := by
    apply List.ext_getElem?
    intro i
    simp only [data, List.map_map, List.getElem?_map]
    by_cases hi : i < N.length
    · rw [List.getElem?_range hi, List.getElem?_eq_getElem hi]
      simp [(ho2 i hi).1]
    · rw [List.getElem?_eq_none (by simpa using hi), List.getElem?_eq_none (by omega)]; rfl
  have hopen := openSeries_ok data (List.replicate (N.map fun _ => n).sum (0 : α)) (N.map fun _ => n) hdl.symm (by simp)
  refine ⟨data.flatten, ?_, by rw [List.length_flatten, hdl], ?_⟩
  · unfold simulateX
    have hlast : pyGet (prefixSums (N.map fun _ => n)) ((prefixSums (N.map fun _ => n)).length - 1) = .ok (N.map fun _ => n).sum := by
      rw [prefixSums_length, Nat.add_sub_cancel, pyGet_prefixSums _ (Nat.le_refl _), List.take_length]
    refine bind_ok.2 ⟨_, hlast, ?_⟩
    rw [← hopen]
    -- both loops do the same on each index
    have key : ∀ (k : Nat) (bs : List ((Nat × Nat) × Nat × Nat)) (ds : List (List α)) (out : List α),
        bs.length = ds.length → k + bs.length ≤ N.length →
        (∀ (i : Nat), i < bs.length → bs[i]? = some (((N.take (k + i)).sum, (N.take (k + i + 1)).sum), ((N.map fun _ => n).take (k + i)).sum, ((N.map fun _ => n).take (k + i + 1)).sum) ∧ ds[i]? = some (o (k + i))) →
        bs.foldlM (fun out b => do
          let v ← spaceFill (slice x b.1.1 b.1.2) (b.2.2 - b.2.1)
          setSlice out b.2.1 b.2.2 v) out =
        (ds.zipIdx k).foldlM (fun out di => do
          let a ← pyGet (prefixSums (N.map fun _ => n)) di.2
          let b ← pyGet (prefixSums (N.map fun _ => n)) (di.2 + 1)
          setSlice out a b di.1) out := by
      intro k bs
      induction bs generalizing k with
      | nil =>
        intro ds out hl _ _
        have : ds = [] := List.length_eq_zero_iff.1 hl.symm
        subst this; rfl
      | cons b bs ih =>
        intro ds out hl hk h
        obtain ⟨d, ds, rfl⟩ : ∃ d t, ds = d :: t := by cases ds with
          | nil => cases hl
          | cons d t => exact ⟨d, t, rfl⟩
        have h0 := h 0 (by simp)
        simp only [List.getElem?_cons_zero, Option.some.injEq, Nat.add_zero] at h0
        obtain ⟨rfl, rfl⟩ := h0
        simp only [List.length_cons] at hk hl
        have hkN : k < N.length := by omega
        have hdiff : ((N.map fun _ => n).take (k + 1)).sum - ((N.map fun _ => n).take k).sum = n := by
          rw [List.take_add_one, List.sum_append, List.getElem?_map, List.getElem?_eq_getElem hkN]; simp
        rw [List.foldlM_cons, List.zipIdx_cons, List.foldlM_cons]
        simp only [hdiff, ho1 k hkN, bind, Except.bind]
        rw [pyGet_prefixSums _ (by simp; omega), pyGet_prefixSums _ (by simp; omega)]
        simp only
        cases hs : setSlice out ((N.map fun _ => n).take k).sum ((N.map fun _ => n).take (k + 1)).sum (o k) with
        | error e => rfl
        | ok out' =>
          refine ih (k + 1) ds out' (by omega) (by omega) ?_
          intro i hi
          have := h (i + 1) (by simp; omega)
          simp only [List.getElem?_cons_succ] at this
          rwa [show k + (i + 1) = k + 1 + i by omega] at this
    refine (key 0 _ data _ ?_ ?_ ?_)
    · simp [prefixSums_length, data]
    · simp [prefixSums_length]
    · intro i hi
      simp only [List.length_zip, List.length_tail, prefixSums_length, List.length_map] at hi
      have hiN : i < N.length := by omega
      simp only [Nat.zero_add]
      constructor
      · rw [List.getElem?_zip_eq_some, List.getElem?_zip_eq_some, List.getElem?_zip_eq_some, List.getElem?_tail, List.getElem?_tail]
        exact ⟨⟨prefixSums_getElem?_of_le _ (by omega), prefixSums_getElem?_of_le _ (by omega)⟩,
          prefixSums_getElem?_of_le _ (by simp; omega), prefixSums_getElem?_of_le _ (by simp; omega)⟩
      · simp only [data, List.getElem?_map, List.getElem?_range hiN, Option.map_some]
  · intro b hb
    have := slice_flatten data (i := b) (d := o b) (by simp [data, List.getElem?_map, List.getElem?_range hb])
    rw [hdl] at this
    rw [this]
    exact ho2 b hb

/-- **C46.** A match-up whose tables fit together and whose series are not empty can be simulated with any number of points. The result has that number of match-ups
in every series, the same sensors, pairs and blocks, boundaries that fit, the same parameters and models. Every block, asked for by covariate, sensor and series,
is the spread of the original block, and the K values of each series that of the original ones. -/
theorem C46_simulated {m : MatchUpS α δ ρ σ} (hwf : m.mu.WF) (hpos : ∀ M ∈ m.mu.idx.Nm, 0 < M) (n : Nat) :
    ∃ s, simulate m n = .ok s ∧ s.mu.idx.WF ∧ s.mu.values.length = s.mu.idx.N_var.sum ∧ s.mu.ks.length = s.mu.idx.Nm.sum ∧
      (∀ M ∈ s.mu.idx.Nm, M = n) ∧ s.mu.idx.Nm.length = m.mu.idx.Nm.length ∧ s.mu.idx.sensors = m.mu.idx.sensors ∧ s.mu.idx.Im = m.mu.idx.Im ∧
      s.mu.idx.blocks = m.mu.idx.blocks ∧ s.a = m.a ∧ s.constant = m.constant ∧ s.sensor_model = m.sensor_model ∧ s.adjustment_model = m.adjustment_model ∧
      (∀ (cov : Nat) (name : String) (series : Nat) (l : List α), m.mu.getVariableData cov name (.num series) = .ok l →
        ∃ out, s.mu.getVariableData cov name (.num series) = .ok out ∧ Spread l n out) ∧
      ∀ i, i < m.mu.idx.Nm.length → ∃ a b a' b', m.mu.idx.cNm[i]? = some a ∧ m.mu.idx.cNm[i + 1]? = some b ∧
        s.mu.idx.cNm[i]? = some a' ∧ s.mu.idx.cNm[i + 1]? = some b' ∧ Spread (slice m.mu.ks a b) n (slice s.mu.ks a' b') := by
  have hposV : ∀ M ∈ m.mu.idx.N_var, 0 < M := by
    intro M hM
    obtain ⟨b, hb⟩ := List.getElem?_of_mem hM
    have hbl : b < m.mu.idx.n_mu.length := by rw [← hwf.idx.len]; exact (List.getElem?_eq_some_iff.1 hb).1
    obtain ⟨-, M', h1, h2⟩ := hwf.idx.block b _ (List.getElem?_eq_getElem hbl)
    rw [hb] at h2; cases h2
    exact hpos M (List.mem_of_getElem? h1)
  obtain ⟨v, v1, v2, v3⟩ := simulateX_ok hwf.values hposV n
  obtain ⟨k, k1, k2, k3⟩ := simulateX_ok hwf.ks hpos n
  rw [← hwf.idx.bounds] at v1
  rw [← hwf.idx.series] at k1
  have hrun : simulate m n = .ok { m with mu := { idx := simulateIdx m.mu.idx n, original_idx := m.mu.original_idx, values := v, ks := k, unck := [], unc := [], w_matrices := [], u_matrices := [], time1 := none, time2 := none, across_track_index1 := none, across_track_index2 := none, along_track_index1 := none, along_track_index2 := none, additional_values := none } } :=
    bind_ok.2 ⟨v, v1, bind_ok.2 ⟨k, k1, rfl⟩⟩
  refine ⟨_, hrun, ?_, v2, k2, ?_, by simp [simulateIdx], rfl, rfl, rfl, rfl, rfl, rfl, rfl, ?_, ?_⟩
  · refine { bounds := rfl, series := rfl, len := by simp [simulateIdx, hwf.idx.len], block := ?_, all := ?_ }
    · intro b i hi
      obtain ⟨h1, M, h2, h3⟩ := hwf.idx.block b i hi
      exact ⟨h1, n, by simp only [simulateIdx, List.getElem?_map, h2]; rfl, by simp only [simulateIdx, List.getElem?_map, h3]; rfl⟩
    · intro i h1 h2
      exact hwf.idx.all i h1 (by simpa [simulateIdx] using h2)
  · intro M hM
    simp only [simulateIdx, List.mem_map] at hM
    obtain ⟨_, _, rfl⟩ := hM; rfl
  · intro cov name series l hl
    unfold MatchUp.getVariableData at hl ⊢
    obtain ⟨keys, h1, hl⟩ := bind_ok.1 hl
    simp only at hl
    obtain ⟨b, h2, hl⟩ := bind_ok.1 hl
    obtain ⟨lo, h3, hl⟩ := bind_ok.1 hl
    obtain ⟨hi, h4, hl⟩ := bind_ok.1 hl
    rw [pure_ok] at hl
    subst hl
    have hbl : b < m.mu.idx.N_var.length := by
      unfold pyGet at h4
      split at h4
      · rename_i h5
        have := (List.getElem?_eq_some_iff.1 h5).1
        rw [hwf.idx.bounds, prefixSums_length] at this
        omega
      · cases h4
    rw [hwf.idx.bounds, pyGet_prefixSums _ (by omega)] at h3 h4
    cases h3; cases h4
    refine ⟨_, bind_ok.2 ⟨keys, h1, ?_⟩, v3 b hbl⟩
    simp only
    refine bind_ok.2 ⟨b, h2, bind_ok.2 ⟨_, pyGet_prefixSums _ (by simp; omega), bind_ok.2 ⟨_, pyGet_prefixSums _ (by simp; omega), rfl⟩⟩⟩
  · intro i hi
    refine ⟨_, _, _, _, by rw [hwf.idx.series]; exact prefixSums_getElem?_of_le _ (by omega), by rw [hwf.idx.series]; exact prefixSums_getElem?_of_le _ (by omega),
      prefixSums_getElem?_of_le _ (by simp; omega), prefixSums_getElem?_of_le _ (by simp; omega), k3 i hi⟩

/-- **C46, empty series.** A match-up with an empty block cannot be simulated: `min` of an empty array is a `ValueError`. -/
theorem C46_empty_fails (hi n : Nat) (x : List α) (idx sim : List Nat) : simulateX x (hi :: hi :: idx) (0 :: n :: sim) = .error .valueError := by
  have h : ∃ k, pyGet (0 :: n :: sim) ((0 :: n :: sim).length - 1) = .ok k := by
    have : (0 :: n :: sim).length - 1 < (0 :: n :: sim).length := by simp
    exact ⟨_, by rw [pyGet, List.getElem?_eq_getElem this]⟩
  obtain ⟨k, hk⟩ := h
  unfold simulateX
  rw [hk]
  have e : slice x hi hi = [] := by simp [slice]
  simp only [bind, Except.bind, List.tail_cons, List.zip_cons_cons, List.foldlM_cons, e, spaceFill, pyMinOf]

/-- A concrete case: two series of a reference and a sensor with two covariates. -/
def Fixture.simIdx : Idx :=
  { Nm := [2, 3], cNm := [0, 2, 5], Im := [(0, 1), (0, 1)], sensors := ["R", "A"], sensor_ms := [1, 1]
    n_sensor := [0, 1, 0, 1], n_mu := [1, 1, 2, 2], n_cov := [1, 1, 1, 1], N_var := [2, 2, 3, 3], idx := [0, 2, 4, 7, 10] }

def Fixture.simCase : MatchUpS ℚ Nat Nat Nat :=
  { mu := { idx := Fixture.simIdx, original_idx := Fixture.simIdx, values := [3, 1, 5, 6, 4, 2, 3, 9, 7, 8], ks := [0, 1, 4, 2, 3], unck := [[1, 1], [1, 1, 1]]
            unc := List.replicate 4 { unc := .independent [], uS_i := none }, w_matrices := [], u_matrices := [], time1 := none, time2 := none, across_track_index1 := none
            across_track_index2 := none, along_track_index1 := none, along_track_index2 := none, additional_values := none }
    a := [1, 2], constant := [], sensor_model := [0, 0], adjustment_model := [0, 0] }

theorem C46_case : Fixture.simCase.mu.WF ∧ (∀ M ∈ Fixture.simCase.mu.idx.Nm, 0 < M) ∧
    ∃ s, simulate Fixture.simCase 3 = .ok s ∧ s.mu.getVariableData 1 "A" (.num 2) = .ok [7, 8, 9] ∧ s.mu.ks = [0, 1 / 2, 1, 2, 3, 4] := by
  refine ⟨{ idx := { bounds := by decide, series := by decide, len := by decide, block := ?_, all := ?_ }, values := by decide, unc := by decide, ks := by decide, unck := by decide },
    by decide, ?_⟩
  · intro b n h
    have hb : b < 4 := (List.getElem?_eq_some_iff.1 h).1
    have : ∀ b < 4, ∀ n, Fixture.simCase.mu.idx.n_mu[b]? = some n → 1 ≤ n ∧ ∃ M, Fixture.simCase.mu.idx.Nm[n - 1]? = some M ∧ Fixture.simCase.mu.idx.N_var[b]? = some M := by
      intro b hb n h
      match b, hb with
      | 0, _ => cases h; exact ⟨by decide, 2, by decide, by decide⟩
      | 1, _ => cases h; exact ⟨by decide, 2, by decide, by decide⟩
      | 2, _ => cases h; exact ⟨by decide, 3, by decide, by decide⟩
      | 3, _ => cases h; exact ⟨by decide, 3, by decide, by decide⟩
    exact this b hb n h
  · intro n h1 h2
    have : n = 1 ∨ n = 2 := by have : n ≤ 2 := h2; omega
    rcases this with rfl | rfl <;> decide
  · have h : (match simulate Fixture.simCase 3 with
      | .ok s => decide (s.mu.getVariableData 1 "A" (.num 2) = .ok [7, 8, 9] ∧ s.mu.ks = [0, 1 / 2, 1, 2, 3, 4])
      | .error _ => false) = true := by decide +kernel
    split at h
    · rename_i s hs
      exact ⟨s, hs, of_decide_eq_true h⟩
    · cases h

end Verif
