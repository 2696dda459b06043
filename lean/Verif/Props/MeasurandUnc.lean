import Verif.Model.MeasurandUnc
import Verif.Spec.MeasurandUnc
import Verif.Props.Measurand
import Verif.Props.Jacobian
import Verif.Lemmas.KernelRfl
import Mathlib.Analysis.SpecialFunctions.Pow.Real
import Mathlib.Tactic.Linarith
/-
Property C77: the uncertainty of the measurand due to the parameters.
-/
set_option autoImplicit false
namespace Verif
variable {α δ : Type}

/-- Where the parameters of a sensor are. -/
def labelPos (labels : List String) (name : String) : List Nat := (List.range labels.length).filter fun i => labels[i]? == some name

theorem labelPos_cons (a : String) (ls : List String) (name : String) : labelPos (a :: ls) name = (if a == name then [0] else []) ++ (labelPos ls name).map (· + 1) := by
  unfold labelPos
  rw [List.length_cons, List.range_succ_eq_map, List.filter_cons, List.filter_map]
  have : (fun i => (a :: ls)[i]? == some name) ∘ Nat.succ = fun i => ls[i]? == some name := by
    funext i; simp
  rw [this]
  by_cases h : a = name <;> simp [h]

theorem pick_pos {β : Type} (d : β) (name : String) : ∀ (labels : List String) (l : List β), l.length = labels.length →
    (((labels.map (· == name)).zip l).filter (·.1)).map (·.2) = (labelPos labels name).map fun i => l.getD i d
  | [], l, h => by simp [labelPos]
  | a :: ls, [], h => by simp at h
  | a :: ls, x :: l, h => by
    have ih := pick_pos d name ls l (by simpa using h)
    rw [labelPos_cons, List.map_append, List.map_map, List.map_cons, List.zip_cons_cons, List.filter_cons]
    by_cases ha : a = name
    · simp only [ha, beq_self_eq_true, if_true, List.map_cons, ih]
      simp
    · have : (a == name) = false := by simpa using ha
      simp only [this, Bool.false_eq_true, if_false, ih]
      simp

theorem labelPos_length (labels : List String) (name : String) : (labelPos labels name).length = labels.count name := by
  induction labels with
  | nil => rfl
  | cons a ls ih =>
    rw [labelPos_cons, List.length_append, List.length_map, ih, List.count_cons]
    by_cases h : a = name
    · simp [h]; omega
    · simp [h]

theorem slice_blocks {β : Type} {ls : List (List β)} {p : Nat} (h : ∀ l ∈ ls, l.length = p) : ((List.range ls.length).map fun i => slice ls.flatten (i * p) (i * p + p)) = ls := by
  apply List.ext_getElem
  · simp
  · intro i h1 h2
    have hs : ∀ k, k ≤ ls.length → ((ls.map List.length).take k).sum = k * p := by
      intro k hk
      have : ls.map List.length = List.replicate ls.length p := List.eq_replicate_iff.2 ⟨by simp, by simpa using h⟩
      rw [this, List.take_replicate, List.sum_replicate, Nat.min_eq_left hk]; rfl
    have := slice_flatten ls (List.getElem?_eq_getElem h2)
    rw [hs i (by omega), hs (i + 1) (by omega), Nat.succ_mul] at this
    simpa using this

section
variable [Field α]

/-- The selected rows and columns. -/
theorem sensorCovariance_ok {labels : List String} {C : List (List α)} (hC : SquareMatrix C labels.length) (name : String) :
    sensorCovariance true (some labels) C name = .ok ((labelPos labels name).map fun i => (labelPos labels name).map fun j => elem C i j) := by
  obtain ⟨h1, h2⟩ := hC
  have hV : (((labels.map (· == name)).zip C).flatMap fun r => (((labels.map (· == name)).zip r.2).filter fun e => r.1 && e.1).map (·.2)) =
      ((labelPos labels name).map fun i => (labelPos labels name).map fun j => elem C i j).flatten := by
    have step : ∀ l : List (Bool × List α), (∀ e ∈ l, e.2.length = labels.length) →
        (l.flatMap fun r => (((labels.map (· == name)).zip r.2).filter fun e => r.1 && e.1).map (·.2)) =
        (((l.filter (·.1)).map (·.2)).map fun row => (labelPos labels name).map fun j => row.getD j 0).flatten := by
      intro l
      induction l with
      | nil => intro _; rfl
      | cons e l ih =>
        intro hl
        rw [List.flatMap_cons, ih fun e' he' => hl e' (by simp [he']), List.filter_cons]
        obtain ⟨b, row⟩ := e
        cases b with
        | false => simp
        | true =>
          simp only [Bool.true_and, if_true, List.map_cons, List.flatten_cons]
          rw [pick_pos 0 name labels row (hl (true, row) (by simp))]
    rw [step _ (by intro e he; exact h2 _ (List.of_mem_zip he).2), pick_pos [] name labels C h1, List.map_map]
    rfl
  have hlen : ∀ l ∈ (labelPos labels name).map (fun i => (labelPos labels name).map fun j => elem C i j), l.length = (labelPos labels name).length := by
    intro l hl
    obtain ⟨i, _, rfl⟩ := List.mem_map.1 hl
    simp
  have hfl : (((labelPos labels name).map fun i => (labelPos labels name).map fun j => elem C i j).flatten).length.sqrt = (labelPos labels name).length := by
    rw [List.length_flatten, List.eq_replicate_iff.2 (⟨by simp, by simpa using hlen⟩ : (((labelPos labels name).map fun i => (labelPos labels name).map fun j => elem C i j).map List.length).length = (labelPos labels name).length ∧
      ∀ b ∈ (((labelPos labels name).map fun i => (labelPos labels name).map fun j => elem C i j).map List.length), b = (labelPos labels name).length), List.sum_replicate]
    exact Nat.sqrt_eq _
  unfold sensorCovariance
  simp only
  rw [if_neg, hV, hfl, if_pos trivial]
  · congr 1
    have := slice_blocks hlen
    rw [List.length_map] at this
    exact this
  · rintro (h | h)
    · exact h (by simpa using h1)
    · rw [List.any_eq_true] at h
      obtain ⟨row, hr, h⟩ := h
      simp [h2 row hr] at h

/-- The gradient with respect to all parameters. -/
def wholeGradient (labels : List String) (name : String) (deriv : List α) (i : Nat) : α :=
  if labels[i]? = some name then deriv.getD ((labelPos labels name).idxOf i) 0 else 0

theorem labelPos_nodup (labels : List String) (name : String) : (labelPos labels name).Nodup := List.nodup_range.filter _

theorem mem_labelPos {labels : List String} {name : String} {i : Nat} : i ∈ labelPos labels name ↔ labels[i]? = some name := by
  unfold labelPos
  rw [List.mem_filter, List.mem_range]
  constructor
  · rintro ⟨_, h⟩; simpa using h
  · intro h; exact ⟨(List.getElem?_eq_some_iff.1 h).1, by simpa using h⟩

theorem wholeGradient_pos {labels : List String} {name : String} {deriv : List α} (hd : deriv.length = labels.count name) :
    (labelPos labels name).map (wholeGradient labels name deriv) = deriv := by
  apply List.ext_getElem
  · rw [List.length_map, labelPos_length, hd]
  · intro k h1 h2
    rw [List.length_map] at h1
    rw [List.getElem_map, wholeGradient, if_pos (mem_labelPos.1 (List.getElem_mem h1)), (labelPos_nodup labels name).idxOf_getElem k h1]
    simp [List.getD, h2]

theorem sum_labelPos (labels : List String) (name : String) (f : Nat → α) (hf : ∀ i, i < labels.length → labels[i]? ≠ some name → f i = 0) :
    ∑ i ∈ Finset.range labels.length, f i = ((labelPos labels name).map f).sum := by
  rw [← list_sum_range, labelPos]
  have : ∀ l : List Nat, (∀ i ∈ l, i < labels.length) → (l.map f).sum = ((l.filter fun i => labels[i]? == some name).map f).sum := by
    intro l
    induction l with
    | nil => intro _; rfl
    | cons i l ih =>
      intro hl
      rw [List.filter_cons, List.map_cons, List.sum_cons, ih fun j hj => hl j (by simp [hj])]
      by_cases h : labels[i]? = some name
      · simp [h]
      · simp [h, hf i (hl i (by simp)) h]
  exact this _ fun i hi => List.mem_range.1 hi

end

variable [Field α] [LinearOrder α] [IsStrictOrderedRing α]

/-- One side: propagation. -/
theorem propagate_ok {sqrt : α → α} (hsq : ∀ x, 0 ≤ x → 0 ≤ sqrt x ∧ sqrt x * sqrt x = x) {labels : List String} {C : List (List α)} (hC : NoNegativeVariance C labels.length) {d : Dataset α} {s : Side α}
    (hm : 1 ≤ s.m) {J : List (List α)} (hJ : DerivativesOf labels d s J) :
    ∃ u, propagate sqrt J s.m ((labelPos labels s.name).map fun i => (labelPos labels s.name).map fun j => elem C i j) = .ok u ∧ UncertaintyOf C labels d s (some J) u := by
  obtain ⟨h1, h2⟩ := hJ
  have hJa : (J.drop s.m).length = labels.count s.name := by rw [List.length_drop]; omega
  unfold propagate
  simp only
  rw [if_neg (by rw [hJa, List.length_map, labelPos_length]; simp)]
  refine ⟨_, rfl, ?_, ?_⟩
  · rw [List.length_map, List.length_range]
    cases J with
    | nil => simp at h1; omega
    | cons c J => exact h2 c (by simp)
  · intro r x hx
    rw [List.getElem?_map] at hx
    cases hr : (List.range (J.headD []).length)[r]? with
    | none => rw [hr] at hx; simp at hx
    | some r' =>
      obtain ⟨hr1, hr2⟩ := List.getElem?_eq_some_iff.1 hr
      obtain rfl : r = r' := by simpa using hr2
      rw [hr] at hx
      simp only [Option.map_some, Option.some.injEq] at hx
      have hg := wholeGradient_pos (labels := labels) (name := s.name) (deriv := (J.drop s.m).map fun col => col.getD r 0) (by rw [List.length_map, hJa])
      generalize hG : wholeGradient labels s.name ((J.drop s.m).map fun col => col.getD r 0) = g at hg
      have hg0 : ∀ i, labels[i]? ≠ some s.name → g i = 0 := by
        intro i hi; rw [← hG]; exact if_neg hi
      have hsum : ∑ i ∈ Finset.range labels.length, ∑ j ∈ Finset.range labels.length, g i * elem C i j * g j =
          ((List.range ((labelPos labels s.name).map fun i => (labelPos labels s.name).map fun j => elem C i j).length).map fun b =>
            ((List.range ((labelPos labels s.name).map fun i => (labelPos labels s.name).map fun j => elem C i j).length).map fun a =>
              ((J.drop s.m).getD a []).getD r 0 * (((labelPos labels s.name).map fun i => (labelPos labels s.name).map fun j => elem C i j).getD a []).getD b 0).sum *
              ((J.drop s.m).getD b []).getD r 0).sum := by
        rw [Finset.sum_comm, sum_labelPos labels s.name _ (by
          intro j _ hj
          exact Finset.sum_eq_zero fun i _ => by rw [hg0 j hj, mul_zero])]
        rw [list_sum_eq_range _ 0, list_sum_range]
        rw [List.length_map]
        apply Finset.sum_congr rfl
        intro b hb
        have hb' : b < (labelPos labels s.name).length := Finset.mem_range.1 hb
        have hpos : ∀ a, a < (labelPos labels s.name).length → g ((labelPos labels s.name).getD a 0) = ((J.drop s.m).getD a []).getD r 0 := by
          intro a ha
          have := congrArg (fun l => l[a]?) hg
          simp only [List.getElem?_map] at this
          rw [List.getElem?_eq_getElem ha, List.getElem?_eq_getElem (by rw [hJa, ← labelPos_length]; exact ha)] at this
          simp only [Option.map_some, Option.some.injEq] at this
          simp only [List.getD, List.getElem?_eq_getElem ha, List.getElem?_eq_getElem (show a < (J.drop s.m).length by rw [hJa, ← labelPos_length]; exact ha), Option.getD_some]
          exact this
        rw [← hpos b hb', ← Finset.sum_mul]
        congr 1
        rw [sum_labelPos labels s.name _ (by
          intro i _ hi
          rw [hg0 i hi, zero_mul]), list_sum_eq_range _ 0, list_sum_range]
        apply Finset.sum_congr rfl
        intro a ha
        have ha' : a < (labelPos labels s.name).length := Finset.mem_range.1 ha
        rw [hpos a ha']
        congr 1
        simp [List.getD, ha', hb']
      have hnn := hC g
      rw [hsum] at hnn
      obtain ⟨s1, s2⟩ := hsq _ hnn
      refine ⟨g, fun i _ hi => hg0 i hi, ?_, by rw [← hx]; exact s1, by rw [hsum, ← hx]; exact s2⟩
      have : selectBy ((List.range labels.length).map g) labels s.name = (labelPos labels s.name).map g := by
        unfold selectBy labelPos
        rw [List.zip_map_left, List.filter_map, List.map_map]
        have hz : ∀ (ls : List String) (k : Nat), (((List.range' k ls.length).zip ls).filter ((fun p => p.2 == s.name) ∘ Prod.map g id)).map (Prod.fst ∘ Prod.map g id) =
            ((List.range' k ls.length).filter fun i => ls[i - k]? == some s.name).map g := by
          intro ls
          induction ls with
          | nil => intro k; rfl
          | cons a ls ih =>
            intro k
            have e : ((List.range' (k + 1) ls.length).filter fun i => (a :: ls)[i - k]? == some s.name) = ((List.range' (k + 1) ls.length).filter fun i => ls[i - (k + 1)]? == some s.name) := by
              apply List.filter_congr
              intro i hi
              have := (List.mem_range'_1.1 hi).1
              rw [show i - k = (i - (k + 1)) + 1 by omega]; simp
            rw [List.length_cons, List.range'_succ, List.zip_cons_cons, List.filter_cons, List.filter_cons, e]
            have e2 : (((a :: ls)[k - k]?) == some s.name) = (a == s.name) := by simp
            rw [e2]
            by_cases h : a = s.name
            · simp only [Function.comp, Prod.map, id, h, beq_self_eq_true, if_true, List.map_cons] at ih ⊢
              rw [ih (k + 1)]
            · have hf : (a == s.name) = false := by simpa using h
              simp only [Function.comp, Prod.map, id, hf, Bool.false_eq_true, if_false] at ih ⊢
              exact ih (k + 1)
        have := hz labels 0
        rw [← List.range_eq_range'] at this
        simpa using this
      rw [this, hg]

omit [IsStrictOrderedRing α] in
/-- The sensor of a side of an opened match-up. -/
theorem opened_side {env : ReadEnv α δ} {dflt : AdjModel α} {ds : List (Dataset α)} (hc : ConsistentFiles ds) (hcol : ∀ d ∈ ds, 1 ≤ d.s1.m ∧ 1 ≤ d.s2.m)
    {sd : SensorData α (SensorModel α δ) (AdjModel α)} (hn : (sd.map (·.1)).Nodup) {ms : Evaluable α δ} (h : openMatchUpWith env dflt ds sd = .ok ms) :
    ∃ f : String → Nat, (∀ (i : Nat) (d : Dataset α), ds[i]? = some d → ms.mu.idx.Im[i]? = some (f d.s1.name, f d.s2.name)) ∧
      ∀ (i : Nat) (d : Dataset α) (s : Side α), ds[i]? = some d → s = d.s1 ∨ s = d.s2 → ms.mu.idx.sensors[f s.name]? = some s.name ∧ ms.mu.idx.sensor_ms[f s.name]? = some s.m ∧
        ∀ y J, MeasuredWith sd ms.mu (i + 1) d s y J → sideMeasurand ms (i + 1) (f s.name) = .ok (y, J) := by
  obtain ⟨mu, e, hmu, he, rfl⟩ := openMatchUpWith_inv h
  obtain ⟨x, mx, hx, hf⟩ := getIdx_facts (openMatchUp_nonempty hmu)
  obtain ⟨x', hx', hv, _, _, _, _, _, _, _, _, _, _, hidx, _⟩ := openMatchUp_inv hmu
  rw [hx] at hx'; cases hx'
  refine ⟨fun nm => mu.idx.sensors.idxOf nm, ?_, ?_⟩
  · intro i d hd
    show mu.idx.Im[i]? = _
    rw [hidx]
    simp only [hf.Im, List.getElem?_map, hd, Option.map_some]
  · intro i d s hd hs
    have hside : s ∈ ds.flatMap Dataset.sides := mem_sides.2 ⟨d, List.mem_of_getElem? hd, hs⟩
    have hlook : mu.idx.sensors[mu.idx.sensors.idxOf s.name]? = some s.name := by rw [hidx]; exact hf.sens_lookup hside
    refine ⟨hlook, ?_, ?_⟩
    · obtain ⟨s', hs', hn', hm'⟩ := hf.ms_first _ _ (hf.sens_lookup hside)
      obtain ⟨d', hd', hs'⟩ := mem_sides.1 hs'
      show mu.idx.sensor_ms[mu.idx.sensors.idxOf s.name]? = _
      rw [hidx]
      have : s'.m = s.m := hc.2 d' hd' d (List.mem_of_getElem? hd) s' (by rcases hs' with rfl | rfl <;> simp) s (by rcases hs with rfl | rfl <;> simp) hn'
      rw [← this]; exact hm'
    · intro y J hy
      have hcd := hcol d (List.mem_of_getElem? hd)
      exact sideMeasurand_openedJ hc hn hmu he _ hd hs (by rcases hs with rfl | rfl; exacts [hcd.1, hcd.2]) hy

/-- One side of one series. -/
theorem sideUncertainty_ok {sqrt : α → α} (hsq : ∀ x, 0 ≤ x → 0 ≤ sqrt x ∧ sqrt x * sqrt x = x) {labels : List String} {C : List (List α)} (hCs : SquareMatrix C labels.length)
    (hC : NoNegativeVariance C labels.length) {ms : Evaluable α δ} (hl : ms.mu.idx.parameter_sensor = some labels) {n k : Nat} {d : Dataset α} {s : Side α} (hm : 1 ≤ s.m)
    (h1 : ms.mu.idx.sensors[k]? = some s.name) (h2 : ms.mu.idx.sensor_ms[k]? = some s.m) {y : List α} {J : Option (List (List α))} (h3 : sideMeasurand ms n k = .ok (y, J))
    (hJ : ∀ J', J = some J' → DerivativesOf labels d s J') :
    ∃ u, sideUncertainty sqrt true C ms n k (List.replicate d.M 0) = .ok u ∧ UncertaintyOf C labels d s J u := by
  unfold sideUncertainty
  cases J with
  | none =>
    refine ⟨List.replicate d.M 0, bind_ok.2 ⟨_, h3, rfl⟩, by simp, ?_⟩
    intro x hx
    exact (List.mem_replicate.1 hx).2
  | some J =>
    obtain ⟨u, hu, hU⟩ := propagate_ok hsq hC hm (hJ J rfl)
    refine ⟨u, bind_ok.2 ⟨_, h3, ?_⟩, hU⟩
    refine bind_ok.2 ⟨s.m, pyGet_ok.2 h2, bind_ok.2 ⟨s.name, pyGet_ok.2 h1, bind_ok.2 ⟨_, ?_, hu⟩⟩⟩
    rw [hl]; exact sensorCovariance_ok hCs _

/-- **C77** With a numpy that takes numbers as sizes, and any covariance matrix of all parameters: evaluation gives the measurands as without it, and for each selected match-up and each of
its two sensors the uncertainty propagated from the parameters of that sensor (zero for a sensor whose model gives no derivatives), in the rows of the measurands. -/
theorem C77_uncertainty_partial (env : ReadEnv α δ) (dflt : AdjModel α) (ds : List (Dataset α)) (hc : ConsistentFiles ds) (hcol : ∀ d ∈ ds, 1 ≤ d.s1.m ∧ 1 ≤ d.s2.m)
    (sd : SensorData α (SensorModel α δ) (AdjModel α)) (hn : (sd.map (·.1)).Nodup) (ms : Evaluable α δ) (h : openMatchUpWith env dflt ds sd = .ok ms)
    (arg : SelArg) (sel : List Nat) (ha : arg.Selects ds sel) (hs : sel.Pairwise (· < ·)) (hr : ∀ n ∈ sel, 1 ≤ n ∧ n ≤ ds.length)
    (y1 y2 : Nat → List α) (J1 J2 : Nat → Option (List (List α)))
    (hy : ∀ n ∈ sel, ∀ d, ds[n - 1]? = some d → MeasuredWith sd ms.mu n d d.s1 (y1 n) (J1 n) ∧ MeasuredWith sd ms.mu n d d.s2 (y2 n) (J2 n))
    (labels : List String) (hl : ms.mu.idx.parameter_sensor = some labels) (C : List (List α)) (hCs : SquareMatrix C labels.length) (hC : NoNegativeVariance C labels.length)
    (hJ : ∀ n ∈ sel, ∀ d, ds[n - 1]? = some d → (∀ J, J1 n = some J → DerivativesOf labels d d.s1 J) ∧ ∀ J, J2 n = some J → DerivativesOf labels d d.s2 J)
    (sqrt : α → α) (hsq : ∀ x, 0 ≤ x → 0 ≤ sqrt x ∧ sqrt x * sqrt x = x) :
    ∃ u1 u2 : Nat → List α, evaluateMeasurandUnc sqrt true C ms arg = .ok (((sel.map y1).flatten, (sel.map y2).flatten), ((sel.map u1).flatten, (sel.map u2).flatten)) ∧
      ∀ n ∈ sel, ∀ d, ds[n - 1]? = some d → UncertaintyOf C labels d d.s1 (J1 n) (u1 n) ∧ UncertaintyOf C labels d d.s2 (J2 n) (u2 n) := by
  have hy' : ∀ n ∈ sel, ∀ d, ds[n - 1]? = some d → MeasuredBy sd ms.mu n d d.s1 (y1 n) ∧ MeasuredBy sd ms.mu n d d.s2 (y2 n) := by
    intro n hn' d hd
    obtain ⟨⟨e1, a1, b1, c1, p1⟩, ⟨e2, a2, b2, c2, p2⟩⟩ := hy n hn' d hd
    exact ⟨⟨e1, a1, b1, c1, _, p1⟩, ⟨e2, a2, b2, c2, _, p2⟩⟩
  have hmeas := C44_measurand_rows env dflt ds hc hcol sd hn ms h arg sel ha hs hr y1 y2 hy'
  obtain ⟨f, f1, f2⟩ := opened_side hc hcol hn h
  have hget : ∀ n ∈ sel, ∃ d, ds[n - 1]? = some d := fun n hn' => ⟨_, List.getElem?_eq_getElem (by have := hr n hn'; omega)⟩
  have hone : ∀ n ∈ sel, ∀ d, ds[n - 1]? = some d → ∀ s, s = d.s1 ∨ s = d.s2 → ∀ y J, MeasuredWith sd ms.mu n d s y J → (∀ J', J = some J' → DerivativesOf labels d s J') →
      ∃ u, sideUncertainty sqrt true C ms n (f s.name) (List.replicate d.M 0) = .ok u ∧ UncertaintyOf C labels d s J u := by
    intro n hn' d hd s hs' y J hyJ hJ'
    obtain ⟨g1, g2, g3⟩ := f2 (n - 1) d s hd hs'
    have hn1 : n - 1 + 1 = n := by have := hr n hn'; omega
    rw [hn1] at g3
    have hcd := hcol d (List.mem_of_getElem? hd)
    exact sideUncertainty_ok hsq hCs hC hl (by rcases hs' with rfl | rfl; exacts [hcd.1, hcd.2]) g1 g2 (g3 y J hyJ) hJ'
  have hex : ∀ n, ∃ u : List α × List α, n ∈ sel → ∀ d, ds[n - 1]? = some d →
      (sideUncertainty sqrt true C ms n (f d.s1.name) (List.replicate d.M 0) = .ok u.1 ∧ UncertaintyOf C labels d d.s1 (J1 n) u.1) ∧
      (sideUncertainty sqrt true C ms n (f d.s2.name) (List.replicate d.M 0) = .ok u.2 ∧ UncertaintyOf C labels d d.s2 (J2 n) u.2) := by
    intro n
    by_cases hn' : n ∈ sel
    · obtain ⟨d, hd⟩ := hget n hn'
      obtain ⟨m1, m2⟩ := hy n hn' d hd
      obtain ⟨j1, j2⟩ := hJ n hn' d hd
      obtain ⟨u1, h1⟩ := hone n hn' d hd _ (.inl rfl) _ _ m1 j1
      obtain ⟨u2, h2⟩ := hone n hn' d hd _ (.inr rfl) _ _ m2 j2
      refine ⟨(u1, u2), fun _ d' hd' => ?_⟩
      rw [hd] at hd'
      obtain rfl := Option.some.inj hd'
      exact ⟨h1, h2⟩
    · exact ⟨([], []), fun h => absurd h hn'⟩
  choose u hu using hex
  refine ⟨fun n => (u n).1, fun n => (u n).2, ?_, fun n hn' d hd => ⟨(hu n hn' d hd).1.2, (hu n hn' d hd).2.2⟩⟩
  have hNm : ms.mu.idx.Nm = ds.map (·.M) := by
    obtain ⟨mu, e, hmu, he, rfl⟩ := openMatchUpWith_inv h
    obtain ⟨x, mx, hx, hf⟩ := getIdx_facts (openMatchUp_nonempty hmu)
    obtain ⟨x', hx', _, _, _, _, _, _, _, _, _, _, _, hidx, _⟩ := openMatchUp_inv hmu
    rw [hx] at hx'; cases hx'
    show mu.idx.Nm = _
    rw [hidx]; exact hf.Nm
  have hMn : ∀ n d, ds[n - 1]? = some d → ms.mu.idx.Nm.getD (n - 1) 0 = d.M := by
    intro n d hd; rw [hNm, List.getD, List.getElem?_map, hd]; rfl
  have hsel : arg.series ms.mu.idx = sel := by
    obtain ⟨mu, e, hmu, he, rfl⟩ := openMatchUpWith_inv h
    exact selects_series hc hcol hmu ha
  have hrn : ∀ n ∈ sel, 1 ≤ n ∧ n ≤ ms.mu.idx.Nm.length := by rw [hNm, List.length_map]; exact hr
  unfold evaluateMeasurandUnc
  refine bind_ok.2 ⟨_, hmeas, ?_⟩
  simp only [hsel]
  rw [selBounds_eq hs hrn]
  refine bind_ok.2 ⟨(sel.map fun n => ms.mu.idx.Nm.getD (n - 1) 0).sum, ?_, ?_⟩
  · rw [prefixSums_length, Nat.add_sub_cancel, pyGet_prefixSums _ (Nat.le_refl _), List.take_length]
  · rw [flatten_replicate_zeros]
    refine bind_ok.2 ⟨((sel.map fun n => (u n).1).flatten, (sel.map fun n => (u n).2).flatten), ?_, rfl⟩
    refine fillRows_ok (pairs := fun n => ms.mu.idx.Im.getD (n - 1) (0, 0)) hs hrn ?_ (by intro n _; simp) ?_ ?_
    · intro n hn'
      obtain ⟨d, hd⟩ := hget n hn'
      rw [List.getD, f1 _ _ hd]; rfl
    · intro n hn'
      obtain ⟨d, hd⟩ := hget n hn'
      rw [hMn n d hd]
      exact ⟨(hu n hn' d hd).1.2.1, (hu n hn' d hd).2.2.1⟩
    · intro n hn'
      obtain ⟨d, hd⟩ := hget n hn'
      rw [hMn n d hd, List.getD, f1 _ _ hd]
      exact ⟨(hu n hn' d hd).1.1, (hu n hn' d hd).2.1⟩

theorem fillRows_inv {x : Idx} {sel : List Nat} {f : Nat → Nat → List α → Py (List α)} {init out : List α × List α} (h : fillRows x sel f init = .ok out) {n : Nat} (hn : n ∈ sel) :
    ∃ pair c1 c2 z1 z2, x.Im[n - 1]? = some pair ∧ f n pair.1 c1 = .ok z1 ∧ f n pair.2 c2 = .ok z2 := by
  unfold fillRows at h
  obtain ⟨k, hk⟩ : ∃ k, (n, k) ∈ sel.zipIdx := by
    obtain ⟨i, hi⟩ := List.mem_iff_getElem?.1 hn
    exact ⟨i, List.mem_zipIdx_iff_getElem?.2 hi⟩
  have key : ∀ (l : List (Nat × Nat)) (a : List α × List α), (n, k) ∈ l → l.foldlM (fun (out : List α × List α) (nk : Nat × Nat) => do
      let pair ← pyGet x.Im (nk.1 - 1)
      let lo ← pyGet (selBounds x sel) nk.2
      let hi ← pyGet (selBounds x sel) (nk.2 + 1)
      let y1 ← f nk.1 pair.1 (slice out.1 lo hi)
      let c1 ← setSlice out.1 lo hi y1
      let y2 ← f nk.1 pair.2 (slice out.2 lo hi)
      let c2 ← setSlice out.2 lo hi y2
      pure (c1, c2) : List α × List α → Nat × Nat → Py (List α × List α)) a = .ok out →
      ∃ pair c1 c2 z1 z2, x.Im[n - 1]? = some pair ∧ f n pair.1 c1 = .ok z1 ∧ f n pair.2 c2 = .ok z2 := by
    intro l
    induction l with
    | nil => intro a h; simp at h
    | cons p l ih =>
      intro a hm hl
      rw [List.foldlM_cons] at hl
      obtain ⟨b, hb, hl⟩ := bind_ok.1 hl
      rcases List.mem_cons.1 hm with rfl | hm
      · obtain ⟨pair, q1, hb⟩ := bind_ok.1 hb
        obtain ⟨lo, _, hb⟩ := bind_ok.1 hb
        obtain ⟨hi, _, hb⟩ := bind_ok.1 hb
        obtain ⟨z1, q2, hb⟩ := bind_ok.1 hb
        obtain ⟨c1, _, hb⟩ := bind_ok.1 hb
        obtain ⟨z2, q3, hb⟩ := bind_ok.1 hb
        exact ⟨pair, _, _, z1, z2, pyGet_ok.1 q1, q2, q3⟩
      · exact ih b hm hl
  exact key _ _ hk h

/-- **C77** (failure) With a numpy that refuses numbers that are not integers as sizes (all versions after 1.11), no evaluation with a covariance matrix succeeds if a model of a selected series gives derivatives. -/
theorem C77_recent_numpy_fails (env : ReadEnv α δ) (dflt : AdjModel α) (ds : List (Dataset α)) (hc : ConsistentFiles ds) (hcol : ∀ d ∈ ds, 1 ≤ d.s1.m ∧ 1 ≤ d.s2.m)
    (sd : SensorData α (SensorModel α δ) (AdjModel α)) (hn : (sd.map (·.1)).Nodup) (ms : Evaluable α δ) (h : openMatchUpWith env dflt ds sd = .ok ms)
    (arg : SelArg) (sel : List Nat) (ha : arg.Selects ds sel) {n : Nat} (hns : n ∈ sel) (hn1 : 1 ≤ n) {d : Dataset α} (hd : ds[n - 1]? = some d) {s : Side α} (hs : s = d.s1 ∨ s = d.s2)
    {y : List α} {J : List (List α)} (hy : MeasuredWith sd ms.mu n d s y (some J)) (C : List (List α)) (sqrt : α → α) (out : (List α × List α) × (List α × List α)) :
    evaluateMeasurandUnc sqrt false C ms arg ≠ .ok out := by
  intro hr
  obtain ⟨f, f1, f2⟩ := opened_side hc hcol hn h
  have hsel : arg.series ms.mu.idx = sel := by
    obtain ⟨mu, e, hmu, he, rfl⟩ := openMatchUpWith_inv h
    exact selects_series hc hcol hmu ha
  obtain ⟨y0, _, hr⟩ := bind_ok.1 hr
  obtain ⟨k, _, hr⟩ := bind_ok.1 hr
  obtain ⟨u, hu, _⟩ := bind_ok.1 hr
  rw [hsel] at hu
  obtain ⟨pair, c1, c2, z1, z2, hp, q1, q2⟩ := fillRows_inv hu hns
  rw [f1 _ _ hd] at hp
  obtain rfl := Option.some.inj hp
  obtain ⟨_, _, g3⟩ := f2 (n - 1) d s hd hs
  rw [Nat.sub_add_cancel hn1] at g3
  have hbad : ∀ c z, sideUncertainty sqrt false C ms n (f s.name) c ≠ .ok z := by
    intro c z hz
    obtain ⟨y', hy', hz⟩ := bind_ok.1 hz
    rw [g3 _ _ hy] at hy'
    obtain rfl := Except.ok.inj hy'
    obtain ⟨m, _, hz⟩ := bind_ok.1 hz
    obtain ⟨nm, _, hz⟩ := bind_ok.1 hz
    obtain ⟨V, hV, _⟩ := bind_ok.1 hz
    unfold sensorCovariance at hV
    split at hV
    · exact absurd hV (by simp)
    · simp only at hV
      split at hV
      · exact absurd hV (by simp)
      · exact absurd hV (by simp)
  rcases hs with rfl | rfl
  · exact hbad _ _ q1
  · exact hbad _ _ q2

/-! ### A concrete case -/
namespace Fixture

/-- A side all of whose covariates have independent uncertainties, over any field. -/
def fside {α : Type} [Field α] (name : String) (m base : Nat) : Side α where
  name := name
  m := m
  X := fun r c => (base + 10 * c + r * r : Nat)
  Ur := fun r c => (1 + r + c : Nat)
  Us := fun _ _ => 0
  utype := fun _ => 1
  wUse := fun _ => 0
  uUse := fun _ => 0

/-- A file with two covariates of each of two sensors and three match-ups. -/
def ffile {α : Type} [Field α] : Dataset α where
  M := 3
  s1 := fside "A" 2 5
  s2 := fside "B" 2 50
  K := fun i => (i + 7 : Nat)
  Kr := fun i => (i + 1 : Nat)
  Ks := fun _ => 0
  time1 := fun i => (1000 + i : Nat)
  time2 := fun i => (2000 + i : Nat)
  hasUse := false
  vars := []
  wNnz := []
  wVal := []
  wCol := []
  wRow := []
  uCount := []
  uVal := []

/-- The reader's environment. -/
def fenv {α : Type} [Field α] : ReadEnv α Int where
  nan := -99
  fill := -1
  toInt := id
  rss := fun a b => a + b
  dateZero := 0
  toDate := fun _ => 0
  enumStr := List.eraseDups
  enumNat := List.eraseDups

theorem ffile_opens {α : Type} [Field α] [DecidableEq α] : (do
    let ms ← openMatchUpWith fenv defaultAdjustment [ffile] (gnModels : SensorData α (SensorModel α Int) (AdjModel α))
    let xa ← ms.mu.getSensorAcrossTrackIndex 1 "A"
    let la ← ms.mu.getSensorAlongTrackIndex 1 "A"
    let ta ← ms.mu.getSensorTime 1 "A"
    let xb ← ms.mu.getSensorAcrossTrackIndex 1 "B"
    let lb ← ms.mu.getSensorAlongTrackIndex 1 "B"
    let tb ← ms.mu.getSensorTime 1 "B"
    pure (ms.mu.idx.parameter_sensor, (fun _ => ()) (xa, la, ta, xb, lb, tb)) : Py _) = .ok (some ["B", "B"], ()) := by
  kernel_rfl

/-- Variances 4 and 9 of the two parameters, covariance 1. -/
def fcov : List (List ℝ) := [[4, 1], [1, 9]]

end Fixture

open Fixture in
/-- A concrete case: real numbers, their square root, one file, a reference sensor and a sensor with two parameters, a covariance matrix of these: all hypotheses of both theorems hold. -/
theorem C77_case : ∃ (ms : Evaluable ℝ Int) (y1 y2 : List ℝ) (J : List (List ℝ)), openMatchUpWith fenv defaultAdjustment [ffile] gnModels = .ok ms ∧
    ConsistentFiles [(ffile : Dataset ℝ)] ∧ (SelArg.num 0).Selects [(ffile : Dataset ℝ)] [1] ∧
    MeasuredWith gnModels ms.mu 1 ffile (ffile : Dataset ℝ).s1 y1 none ∧ MeasuredWith gnModels ms.mu 1 ffile (ffile : Dataset ℝ).s2 y2 (some J) ∧
    ms.mu.idx.parameter_sensor = some ["B", "B"] ∧ SquareMatrix fcov 2 ∧ NoNegativeVariance fcov 2 ∧ DerivativesOf ["B", "B"] ffile (ffile : Dataset ℝ).s2 J ∧
    (∀ x : ℝ, 0 ≤ x → 0 ≤ Real.sqrt x ∧ Real.sqrt x * Real.sqrt x = x) ∧
    (∃ u1 u2, evaluateMeasurandUnc Real.sqrt true fcov ms (.num 0) = .ok ((y1, y2), (u1, u2)) ∧ u1.length = 3 ∧ u2.length = 3) ∧
    ∀ out, evaluateMeasurandUnc Real.sqrt false fcov ms (.num 0) ≠ .ok out := by
  have h := ffile_opens (α := ℝ)
  obtain ⟨ms, h0, h⟩ := bind_ok.1 h
  obtain ⟨xa, a1, h⟩ := bind_ok.1 h
  obtain ⟨la, a2, h⟩ := bind_ok.1 h
  obtain ⟨ta, a3, h⟩ := bind_ok.1 h
  obtain ⟨xb, b1, h⟩ := bind_ok.1 h
  obtain ⟨lb, b2, h⟩ := bind_ok.1 h
  obtain ⟨tb, b3, h⟩ := bind_ok.1 h
  rw [pure_ok] at h
  have hl : ms.mu.idx.parameter_sensor = some ["B", "B"] := congrArg Prod.fst h
  have hc : ConsistentFiles [(ffile : Dataset ℝ)] := by
    constructor
    · intro d hd
      simp only [List.mem_cons, List.not_mem_nil, or_false] at hd
      subst hd
      show "A" ≠ "B"; decide
    · intro d hd e he s hs t ht _
      simp only [List.mem_cons, List.not_mem_nil, or_false] at hd he hs ht
      subst hd; subst he
      rcases hs with rfl | rfl <;> rcases ht with rfl | rfl <;> rfl
  have hcol : ∀ d ∈ [(ffile : Dataset ℝ)], 1 ≤ d.s1.m ∧ 1 ≤ d.s2.m := by
    intro d hd
    simp only [List.mem_cons, List.not_mem_nil, or_false] at hd
    subst hd
    exact ⟨show 1 ≤ 2 by omega, show 1 ≤ 2 by omega⟩
  have hn : (((gnModels : SensorData ℝ (SensorModel ℝ Int) (AdjModel ℝ))).map (·.1)).Nodup := by
    show ["A", "B"].Nodup; decide
  have hsel : (SelArg.num 0).Selects [(ffile : Dataset ℝ)] [1] := by
    show [1] = (List.range 1).map (· + 1); rfl
  have m1 : ∃ y1, MeasuredWith gnModels ms.mu 1 ffile (ffile : Dataset ℝ).s1 y1 none :=
    ⟨_, _, xa, la, ta, List.mem_cons_self, a1, a2, a3, rfl, rfl⟩
  have m2 : ∃ y2 J, MeasuredWith gnModels ms.mu 1 ffile (ffile : Dataset ℝ).s2 y2 (some J) ∧ DerivativesOf ["B", "B"] ffile (ffile : Dataset ℝ).s2 J := by
    refine ⟨_, _, ⟨_, xb, lb, tb, List.mem_cons_of_mem _ List.mem_cons_self, b1, b2, b3, rfl, rfl⟩, rfl, ?_⟩
    intro col hcol'
    simp only [List.mem_cons, List.not_mem_nil, or_false] at hcol'
    rcases hcol' with rfl | rfl | rfl | rfl <;> rfl
  obtain ⟨y1, m1⟩ := m1
  obtain ⟨y2, J, m2, hJ⟩ := m2
  have hCs : SquareMatrix fcov 2 := by
    refine ⟨rfl, ?_⟩
    intro row hr
    simp only [fcov, List.mem_cons, List.not_mem_nil, or_false] at hr
    rcases hr with rfl | rfl <;> rfl
  have hC : NoNegativeVariance fcov 2 := by
    intro v
    simp only [Finset.sum_range_succ, Finset.sum_range_zero, elem, fcov, List.getD_cons_zero, List.getD_cons_succ]
    nlinarith [sq_nonneg (v 0 + v 1), sq_nonneg (v 0), sq_nonneg (v 1)]
  have hsq : ∀ x : ℝ, 0 ≤ x → 0 ≤ Real.sqrt x ∧ Real.sqrt x * Real.sqrt x = x := fun x hx => ⟨Real.sqrt_nonneg x, Real.mul_self_sqrt hx⟩
  refine ⟨ms, y1, y2, J, h0, hc, hsel, m1, m2, hl, hCs, hC, hJ, hsq, ?_, fun out => ?_⟩
  · obtain ⟨u1, u2, hu, hU⟩ := C77_uncertainty_partial fenv defaultAdjustment [(ffile : Dataset ℝ)] hc hcol gnModels hn ms h0 (.num 0) [1] hsel (by simp) (by simp) (fun _ => y1) (fun _ => y2)
      (fun _ => none) (fun _ => some J)
      (by
        intro n hn' d hd
        obtain rfl := List.mem_singleton.1 hn'
        simp only [Nat.sub_self, List.getElem?_cons_zero, Option.some.injEq] at hd
        subst hd
        exact ⟨m1, m2⟩) ["B", "B"] hl fcov hCs hC
      (by
        intro n hn' d hd
        obtain rfl := List.mem_singleton.1 hn'
        simp only [Nat.sub_self, List.getElem?_cons_zero, Option.some.injEq] at hd
        subst hd
        refine ⟨fun J' (h' : none = some J') => (nomatch h'), fun J' h' => ?_⟩
        obtain rfl := Option.some.inj h'
        exact hJ) Real.sqrt hsq
    have hU1 := hU 1 (by simp) ffile rfl
    refine ⟨u1 1, u2 1, ?_, hU1.1.1, hU1.2.1⟩
    rw [hu]; simp
  · exact C77_recent_numpy_fails fenv defaultAdjustment [(ffile : Dataset ℝ)] hc hcol gnModels hn ms h0 (.num 0) [1] hsel (n := 1) (by simp) (le_refl 1) rfl (.inr rfl) m2 fcov Real.sqrt out

end Verif
