import Verif.Model.Vis
import Verif.Lemmas.Py
import Verif.Lemmas.ReaderOpen
import Verif.Lemmas.Sample
import Verif.Lemmas.Transform
import Verif.Props.SensorData
/-
The caches of a `HarmonisationVis` object: an invariant kept by every call.
-/
set_option autoImplicit false
namespace Verif
variable {α : Type}

/-! ### Specification -/

/-- Differences match-up by match-up: second minus first minus the K value. -/
def residuals [Sub α] (second first k : List α) : List α := List.zipWith (· - ·) (List.zipWith (· - ·) second first) k

/-- What the quantities should be, for nominal measurands `n1`, `n2`, measurands `h1`, `h2` and K values `k`. -/
def Quantity.spec [Sub α] (n1 n2 h1 h2 k : List α) : Quantity → List α
  | .L1_nom => n1
  | .L2_nom => n2
  | .kres_nom_nom => residuals n2 n1 k
  | .L1_harm => h1
  | .L2_harm => h2
  | .kres_harm_harm => residuals h2 h1 k
  | .kres_nom_harm => residuals n2 h1 k

/-- The quantities that depend on the harmonisation. -/
def Quantity.harmonised : Quantity → Bool
  | .L1_harm | .L2_harm | .kres_harm_harm | .kres_nom_harm => true
  | _ => false

/-- Which measurand a quantity asks for first, if any: `some true` for the first sensor, `some false` for the second. -/
def Quantity.asks : Quantity → Option Bool
  | .L1_harm | .kres_nom_harm => some true
  | .L2_harm | .kres_harm_harm => some false
  | _ => none

/-- The same for a call. -/
def VisCall.asks : VisCall → Option Bool
  | .full q | .samples q | .monthly q | .scatter q | .scatterMonthly q | .density q => q.asks
  | .scatterHarmonised => some true
  | _ => none

/-- Positions that may be plotted: for every series a sorted list of positions within the series; all of them when there are at most 10000 match-ups, else the series' share of 10000. -/
def PlottedPositions (sizes : List Nat) (pos : List (List Nat)) : Prop :=
  pos.length = sizes.length ∧ ∀ (i : Nat) (M : Nat) (p : List Nat), sizes[i]? = some M → pos[i]? = some p →
    p.Pairwise (· ≤ ·) ∧ (∀ j ∈ p, j < M) ∧ (sizes.sum ≤ 10000 → p = List.range M) ∧ (10000 < sizes.sum → p.length = M * 10000 / sizes.sum)

/-- The values at those positions: series `i` begins after the series before it. -/
def SampledAt {β : Type} (sizes : List Nat) (pos : List (List Nat)) (vals : List β) (out : List (List β)) : Prop :=
  out.length = sizes.length ∧ ∀ (i : Nat) (p : List Nat), pos[i]? = some p → ∃ s, out[i]? = some s ∧ s.map some = p.map fun j => vals[(sizes.take i).sum + j]?

/-- An object that can be used: a match-up with sensor data, nominal measurands and times, whose measurands can be evaluated with its own parameters and with the harmonised ones. -/
structure VisReady [Zero α] (ms : Evaluable α DateTime) (r : List α × List String) (sizes : List Nat) (n1 n2 : List α) (own harm : List α × List α) (t : List DateTime)
    (labels suffixes : List String) : Prop where
  h_par : ms.mu.idx.parameter_sensor ≠ none
  h_nom1 : ms.mu.getAdditionalData "nominal_measurand1" none = .ok n1
  h_nom2 : ms.mu.getAdditionalData "nominal_measurand2" none = .ok n2
  h_harm : evaluateAdjusted (ms.withParameters r.1 r.2) (.num 0) = .ok harm
  h_own : evaluateAdjusted ms (.num 0) = .ok own
  h_len : n1.length = sizes.sum ∧ n2.length = sizes.sum ∧ own.1.length = sizes.sum ∧ own.2.length = sizes.sum ∧ harm.1.length = sizes.sum ∧ harm.2.length = sizes.sum ∧
    ms.mu.ks.length = sizes.sum
  h_time : ms.mu.time2 = some t
  h_tlen : t.length = sizes.sum
  h_cNm : ms.mu.idx.cNm = prefixSums sizes
  h_some : sizes ≠ []
  h_labels : pairNames ms.mu.idx " - " = .ok labels
  h_suffixes : pairNames ms.mu.idx "_" = .ok suffixes
  h_llen : labels.length = sizes.length

/-- There are as many random positions as asked for, in range (`int(total * x)` for `0 ≤ x < 1`). -/
def DrawOk (draw : Nat → Nat → Nat → List Nat) : Prop := ∀ k total n, (draw k total n).length = n ∧ (0 < total → ∀ j ∈ draw k total n, j < total)

/-! ### Bounds and positions -/

theorem mapM_all_ok {β γ : Type} {f : β → Py γ} : ∀ {l : List β}, (∀ a ∈ l, ∃ b, f a = .ok b) → ∃ r, l.mapM f = .ok r
  | [], _ => ⟨[], rfl⟩
  | a :: l, h => by
    obtain ⟨b, hb⟩ := h a (by simp)
    obtain ⟨r, hr⟩ := mapM_all_ok (l := l) fun c hc => h c (by simp [hc])
    exact ⟨b :: r, by rw [List.mapM_cons]; exact bind_ok.2 ⟨b, hb, bind_ok.2 ⟨r, hr, rfl⟩⟩⟩

theorem seriesBounds_eq {x : Idx} {sizes : List Nat} (h : x.cNm = prefixSums sizes) :
    seriesBounds x = (List.range sizes.length).map fun i => ((sizes.take i).sum, (sizes.take (i + 1)).sum) := by
  unfold seriesBounds
  rw [h, prefixSums_eq]
  apply List.ext_getElem
  · simp
  · intro i h1 h2
    simp at h1 ⊢

theorem take_sum_next {sizes : List Nat} {i M : Nat} (h : sizes[i]? = some M) : (sizes.take (i + 1)).sum = (sizes.take i).sum + M := by
  rw [List.take_add_one, h, List.sum_append]
  simp

theorem take_sum_le {sizes : List Nat} {i M : Nat} (h : sizes[i]? = some M) : (sizes.take i).sum + M ≤ sizes.sum := by
  rw [← take_sum_next h]
  conv => rhs; rw [← List.take_append_drop (i + 1) sizes, List.sum_append]
  exact Nat.le_add_right _ _

theorem seriesPositions_facts {draw : Nat → Nat → Nat → List Nat} (hd : DrawOk draw) (total : Nat) : ∀ (bs : List (Nat × Nat)) (k : Nat),
    (seriesPositions draw total k bs).1.length = bs.length ∧ ∀ (i : Nat) (b : Nat × Nat), bs[i]? = some b → ∃ p, (seriesPositions draw total k bs).1[i]? = some p ∧
      p.Pairwise (· ≤ ·) ∧ (∀ j ∈ p, j < b.2 - b.1) ∧ (total ≤ 10000 → p = List.range (b.2 - b.1)) ∧ (10000 < total → p.length = (b.2 - b.1) * 10000 / total)
  | [], k => by simp [seriesPositions]
  | b :: bs, k => by
    by_cases hc : maxScatterSamples < total
    · obtain ⟨h1, h2⟩ := seriesPositions_facts hd total bs (k + 1)
      unfold seriesPositions
      rw [if_pos hc]
      refine ⟨by simp [h1], ?_⟩
      intro i b' hb'
      cases i with
      | zero =>
        simp only [List.getElem?_cons_zero, Option.some.injEq] at hb'
        subst hb'
        have hc' : ¬ total ≤ 10000 := not_le.2 hc
        obtain ⟨d1, d2⟩ := hd k (b.2 - b.1) ((b.2 - b.1) * maxScatterSamples / total)
        refine ⟨_, rfl, pySorted_sorted _, ?_, fun h => absurd h hc', fun _ => ?_⟩
        · intro j hj
          have hj' := (pySorted_perm _).mem_iff.1 hj
          refine d2 (Nat.pos_of_ne_zero fun h0 => ?_) j hj'
          rw [h0, Nat.zero_mul, Nat.zero_div] at d1 hj'
          rw [List.length_eq_zero_iff.1 d1] at hj'
          cases hj'
        · rw [(pySorted_perm _).length_eq, d1]; rfl
      | succ i =>
        simp only [List.getElem?_cons_succ] at hb' ⊢
        exact h2 i b' hb'
    · obtain ⟨h1, h2⟩ := seriesPositions_facts hd total bs k
      unfold seriesPositions
      rw [if_neg hc]
      refine ⟨by simp [h1], ?_⟩
      intro i b' hb'
      cases i with
      | zero =>
        simp only [List.getElem?_cons_zero, Option.some.injEq] at hb'
        subst hb'
        refine ⟨_, rfl, ?_, ?_, fun _ => rfl, fun h => absurd h hc⟩
        · exact List.pairwise_lt_range.imp fun h => Nat.le_of_lt h
        · intro j hj; exact List.mem_range.1 hj
      | succ i =>
        simp only [List.getElem?_cons_succ] at hb' ⊢
        exact h2 i b' hb'

theorem plotted_of_series {draw : Nat → Nat → Nat → List Nat} (hd : DrawOk draw) {x : Idx} {sizes : List Nat} (h : x.cNm = prefixSums sizes) (k : Nat) :
    PlottedPositions sizes (seriesPositions draw sizes.sum k (seriesBounds x)).1 := by
  obtain ⟨h1, h2⟩ := seriesPositions_facts hd sizes.sum (seriesBounds x) k
  rw [seriesBounds_eq h] at h1 h2 ⊢
  refine ⟨by simpa using h1, ?_⟩
  intro i M p hM hp
  have hi := (List.getElem?_eq_some_iff.1 hM).1
  obtain ⟨p', e1, e2, e3, e4, e5⟩ := h2 i ((sizes.take i).sum, (sizes.take (i + 1)).sum) (by rw [List.getElem?_map, List.getElem?_range hi]; rfl)
  rw [hp] at e1
  cases e1
  have hM' : (sizes.take (i + 1)).sum - (sizes.take i).sum = M := by rw [take_sum_next hM]; omega
  simp only [hM'] at e3 e4 e5
  exact ⟨e2, e3, e4, e5⟩

theorem pickSamples_ok {β : Type} {x : Idx} {sizes : List Nat} (h : x.cNm = prefixSums sizes) {pos : List (List Nat)} (hp : PlottedPositions sizes pos) {vals : List β}
    (hl : vals.length = sizes.sum) : ∃ out, pickSamples x pos vals = .ok out ∧ SampledAt sizes pos vals out := by
  obtain ⟨hlen, hpos⟩ := hp
  unfold pickSamples
  rw [seriesBounds_eq h]
  obtain ⟨out, ho⟩ := mapM_all_ok (f := fun bp : (Nat × Nat) × List Nat => bp.2.mapM (pyGet (slice vals bp.1.1 bp.1.2)))
    (l := ((List.range sizes.length).map fun i => ((sizes.take i).sum, (sizes.take (i + 1)).sum)).zip pos) (by
      intro bp hbp
      obtain ⟨i, hi⟩ := List.mem_iff_getElem?.1 hbp
      rw [List.getElem?_zip_eq_some] at hi
      obtain ⟨h1, h2⟩ := hi
      rw [List.getElem?_map] at h1
      by_cases hi : i < sizes.length
      · rw [List.getElem?_range hi] at h1
        simp only [Option.map_some, Option.some.injEq] at h1
        apply mapM_all_ok
        intro j hj
        have hM : sizes[i]? = some sizes[i] := List.getElem?_eq_getElem hi
        have hlt := (hpos i _ _ hM h2).2.1 j hj
        have hb : (sizes.take i).sum + j < vals.length := by have := take_sum_le hM; omega
        refine ⟨vals[(sizes.take i).sum + j], pyGet_ok.2 ?_⟩
        rw [← h1]
        simp only [slice]
        rw [take_sum_next hM, List.getElem?_take_of_lt (by omega), List.getElem?_drop, List.getElem?_eq_getElem hb]
      · rw [List.getElem?_eq_none (by simpa using Nat.le_of_not_lt hi)] at h1
        cases h1)
  refine ⟨out, ho, ?_⟩
  obtain ⟨g1, g2⟩ := mapM_ok_get ho
  refine ⟨by rw [g1]; simp [hlen], ?_⟩
  intro i p hpi
  have hi : i < sizes.length := by rw [← hlen]; exact (List.getElem?_eq_some_iff.1 hpi).1
  have hM : sizes[i]? = some sizes[i] := List.getElem?_eq_getElem hi
  obtain ⟨s, hs, hs'⟩ := g2 i (((sizes.take i).sum, (sizes.take (i + 1)).sum), p) (by
    rw [List.getElem?_zip_eq_some, List.getElem?_map, List.getElem?_range hi]
    exact ⟨rfl, hpi⟩)
  refine ⟨s, hs', ?_⟩
  obtain ⟨k1, k2⟩ := mapM_ok_get hs
  apply List.ext_getElem?
  intro m
  rw [List.getElem?_map, List.getElem?_map]
  cases hm : p[m]? with
  | none =>
    have : s[m]? = none := by rw [List.getElem?_eq_none_iff] at hm ⊢; simpa [k1] using hm
    rw [this]; rfl
  | some j =>
    obtain ⟨y, hy, hy'⟩ := k2 m j hm
    rw [hy']
    have hlt := (hpos i _ _ hM hpi).2.1 j (List.mem_of_getElem? hm)
    have := pyGet_ok.1 hy
    simp only [slice] at this
    rw [take_sum_next hM, List.getElem?_take_of_lt (by omega), List.getElem?_drop] at this
    simp only [Option.map_some, this]

theorem SampledAt.unique {β : Type} {sizes : List Nat} {pos : List (List Nat)} (hp : pos.length = sizes.length) {vals : List β} {a b : List (List β)} (ha : SampledAt sizes pos vals a)
    (hb : SampledAt sizes pos vals b) : a = b := by
  apply List.ext_getElem?
  intro i
  cases hi : pos[i]? with
  | none =>
    rw [List.getElem?_eq_none_iff] at hi
    rw [List.getElem?_eq_none (by rw [ha.1]; omega), List.getElem?_eq_none (by rw [hb.1]; omega)]
  | some p =>
    obtain ⟨s, hs, hs'⟩ := ha.2 i p hi
    obtain ⟨s', ht, ht'⟩ := hb.2 i p hi
    rw [hs, ht]
    congr 1
    have := hs'.trans ht'.symm
    exact List.map_injective_iff.2 (Option.some_injective _) this

end Verif
