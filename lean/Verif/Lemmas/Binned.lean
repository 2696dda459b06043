import Verif.Model.Binned
import Verif.Props.Stats
import Verif.Lemmas.Vis
/-
Binned plots of one series.
-/
set_option autoImplicit false
set_option linter.unusedSectionVars false
namespace Verif
variable {α : Type} [Field α] [LinearOrder α] [IsStrictOrderedRing α]

/-! ### Specification -/

/-- The rows among the first `M` whose variable `x` is in bin `i` of `n` equal bins between `lo` and `hi` (closed below, open above). -/
def binRows (M : Nat) (x : Nat → α) (lo hi : α) (n i : Nat) : List Nat := (List.range M).filter fun r => decide (InBin lo hi n i (x r))

/-- The mean of `y` over rows. -/
def meanOver (rows : List Nat) (y : Nat → α) : α := (rows.map y).sum / (rows.length : α)

/-- The standard deviation of `y` over rows. -/
def deviationOver (sqrt : α → α) (rows : List Nat) (y : Nat → α) : α := sqrt ((rows.map fun r => (y r - meanOver rows y) ^ 2).sum / (rows.length : α))

/-- What a binned plot of `y` over `x` should show: for every one of 50 bins with at least one row, the centre of the bin, the mean of `y` over its rows, and their standard deviation. -/
def binnedPoints (sqrt : α → α) (M : Nat) (x y : Nat → α) (lo hi : α) : List (α × α × Option α) :=
  (List.range 50).filterMap fun (i : Nat) =>
    if binRows M x lo hi 50 i = [] then none
    else some (lo + ((i : α) + 1 / 2) * ((hi - lo) / 50), meanOver (binRows M x lo hi 50 i) y, some (deviationOver sqrt (binRows M x lo hi 50 i) y))

/-- `lo` and `hi` are the least and the greatest value of `x` over the first `M` rows. -/
def RangeOf (M : Nat) (x : Nat → α) (lo hi : α) : Prop := (∀ r < M, lo ≤ x r ∧ x r ≤ hi) ∧ (∃ r < M, x r = lo) ∧ ∃ r < M, x r = hi

/-! ### Binning -/

theorem range_zipIdx {β : Type} (M : Nat) (g : Nat → β) : ((List.range M).map g).zipIdx = (List.range M).map fun i => (g i, i) := by
  apply List.ext_getElem
  · simp
  · intro i h1 h2
    simp

theorem whereIdx_range {β : Type} (M : Nat) (g : Nat → β) (p : β → Bool) : whereIdx ((List.range M).map g) p = (List.range M).filter fun r => p (g r) := by
  unfold whereIdx
  rw [range_zipIdx, List.filter_map, List.map_map]
  simp [Function.comp_def]

theorem edges_zip (lo hi : Option α) (n : Nat) : (binEdgesNan lo hi n).zip (binEdgesNan lo hi n).tail =
    (List.range n).map fun (i : Nat) => (lo.bind fun a => hi.map fun b => a + (i : α) * (b - a) / (n : α), lo.bind fun a => hi.map fun b => a + ((i + 1 : Nat) : α) * (b - a) / (n : α)) := by
  apply List.ext_getElem
  · simp [binEdgesNan]
  · intro i h1 h2
    simp [binEdgesNan]

/-- The rows of a bin, when `nan` is possible: `none` has none. -/
def nanRows (M : Nat) (x : Nat → Option α) (lo hi : Option α) (n i : Nat) : List Nat :=
  (List.range M).filter fun r => match lo, hi, x r with
    | some a, some b, some v => decide (InBin a b n i v)
    | _, _, _ => false

/-- `bin` on columns given by functions. -/
theorem binNan_ok (sqrt : α → α) (M : Nat) (x : Nat → Option α) (y : Nat → α) (n : Nat) (lo hi : Option α) :
    binNan sqrt ((List.range M).map y) ((List.range M).map x) n lo hi = .ok
      { average := (List.range n).map fun i => pyAverage ((nanRows M x lo hi n i).map y)
        std := (List.range n).map fun i => pyStd sqrt ((nanRows M x lo hi n i).map y)
        centre := (List.range n).map fun (i : Nat) => lo.bind fun a => hi.map fun b => a + ((i : α) + 1 / 2) * ((b - a) / (n : α)) } := by
  have hvals : (((binEdgesNan lo hi n).zip (binEdgesNan lo hi n).tail).mapM fun ab =>
      (whereIdx ((List.range M).map x) fun v => nanLe ab.1 v && nanLt v ab.2).mapM (pyGet ((List.range M).map y))) =
      .ok ((List.range n).map fun i => (nanRows M x lo hi n i).map y) := by
    rw [edges_zip, List.mapM_map]
    apply mapM_ok_of
    intro i hi'
    simp only [Function.comp_apply]
    rw [whereIdx_range]
    have hrows : (List.range M).filter (fun r => nanLe (lo.bind fun a => hi.map fun b => a + (i : α) * (b - a) / (n : α)) (x r) &&
        nanLt (x r) (lo.bind fun a => hi.map fun b => a + ((i + 1 : Nat) : α) * (b - a) / (n : α))) = nanRows M x lo hi n i := by
      unfold nanRows
      apply List.filter_congr
      intro r _
      cases lo with
      | none => simp [nanLe]
      | some a =>
        cases hi with
        | none => simp [nanLe]
        | some b =>
          cases x r with
          | none => simp [nanLe]
          | some v =>
            simp only [Option.bind_some, Option.map_some, nanLe, nanLt, InBin]
            rw [← Bool.decide_and]
            congr 1
            rw [mul_div_assoc, mul_div_assoc]
            push_cast
            rfl
    rw [hrows]
    apply mapM_ok_of
    intro r hr
    have : r < M := by
      unfold nanRows at hr
      exact List.mem_range.1 (List.mem_filter.1 hr).1
    simp [pyGet, this]
  unfold binNan
  refine bind_ok.2 ⟨_, hvals, ?_⟩
  rw [edges_zip]
  show Except.ok _ = Except.ok _
  simp only [List.map_map, Except.ok.injEq, BinnedNan.mk.injEq, Function.comp_def, true_and]
  apply List.map_congr_left
  intro i _
  cases lo with
  | none => rfl
  | some a =>
    cases hi with
    | none => rfl
    | some b =>
      simp only [Option.bind_some, Option.map_some, Option.some.injEq]
      push_cast
      ring

/-- Without `nan` this is the function of which C50 speaks. -/
theorem binNan_numbers (sqrt : α → α) (M : Nat) (x y : Nat → α) (n : Nat) (lo hi : α) {out : Binned α}
    (h : bin sqrt ((List.range M).map y) ((List.range M).map x) n (some (lo, hi)) = .ok out) :
    binNan sqrt ((List.range M).map y) ((List.range M).map fun r => some (x r)) n (some lo) (some hi) = .ok { average := out.average, std := out.std, centre := out.centre.map some } := by
  unfold bin at h
  obtain ⟨r, hr, h⟩ := bind_ok.1 h
  cases hr
  obtain ⟨vals, hv, h⟩ := bind_ok.1 h
  rw [pure_ok] at h
  subst h
  unfold binNan
  have e : (binEdgesNan (some lo) (some hi) n).zip (binEdgesNan (some lo) (some hi) n).tail =
      ((binEdges lo hi n).zip (binEdges lo hi n).tail).map fun ab => (some ab.1, some ab.2) := by
    apply List.ext_getElem
    · simp [binEdgesNan, binEdges]
    · intro i h1 h2
      simp [binEdgesNan, binEdges]
  refine bind_ok.2 ⟨vals, ?_, ?_⟩
  · rw [e, List.mapM_map, ← hv]
    apply mapM_congr_mem
    intro ab _
    simp only [Function.comp_apply]
    unfold binVals
    congr 1
    rw [whereIdx_range, whereIdx_range]
    rfl
  · rw [e]
    show Except.ok _ = Except.ok _
    simp [Function.comp_def]

theorem nanRows_some (M : Nat) (x : Nat → α) (lo hi : α) (n i : Nat) : nanRows M (fun r => some (x r)) (some lo) (some hi) n i = binRows M x lo hi n i := rfl

theorem average_rows {rows : List Nat} (y : Nat → α) : pyAverage (rows.map y) = if rows = [] then none else some (meanOver rows y) := by
  unfold pyAverage meanOver
  simp only [List.map_eq_nil_iff, List.length_map]

theorem std_rows (sqrt : α → α) {rows : List Nat} (y : Nat → α) : pyStd sqrt (rows.map y) = if rows = [] then none else some (deviationOver sqrt rows y) := by
  unfold pyStd deviationOver meanOver
  simp only [List.map_eq_nil_iff, List.length_map, List.map_map, Function.comp_def]

theorem zip_map_map {β γ δ : Type} (L : List β) (f : β → γ) (g : β → δ) : (L.map f).zip (L.map g) = L.map fun i => (f i, g i) := by
  rw [List.zip_map']

theorem numericPoints_map {β : Type} (L : List β) (y x e : β → Option α) :
    numericPoints (L.map y) (L.map x) (L.map e) = L.filterMap fun i => (x i).bind fun u => (y i).map fun v => (u, v, e i) := by
  unfold numericPoints
  rw [zip_map_map, zip_map_map, List.filterMap_map]
  rfl

theorem whereNumber_map {β : Type} (L : List β) (f a : β → Option α) : whereNumber (L.map f) (L.map a) = (L.filter fun i => (a i).isSome).map f := by
  unfold whereNumber
  rw [zip_map_map, List.filter_map, List.map_map]
  rfl

/-- The points of a bin plot. -/
theorem points_eq (sqrt : α → α) (M : Nat) (x y : Nat → α) (lo hi : α) :
    numericPoints ((List.range 50).map fun i => pyAverage ((nanRows M (fun r => some (x r)) (some lo) (some hi) 50 i).map y))
      ((List.range 50).map fun (i : Nat) => (some lo).bind fun a => (some hi).map fun b => a + ((i : α) + 1 / 2) * ((b - a) / ((50 : Nat) : α)))
      ((List.range 50).map fun i => pyStd sqrt ((nanRows M (fun r => some (x r)) (some lo) (some hi) 50 i).map y)) = binnedPoints sqrt M x y lo hi := by
  rw [numericPoints_map]
  unfold binnedPoints
  congr 1
  funext i
  rw [nanRows_some, average_rows, std_rows]
  split <;> simp

theorem points_kept (sqrt : α → α) (M : Nat) (x y : Nat → α) (lo hi : α) :
    let avg := (List.range 50).map fun i => pyAverage ((nanRows M (fun r => some (x r)) (some lo) (some hi) 50 i).map y)
    numericPoints (whereNumber avg avg)
      (whereNumber ((List.range 50).map fun (i : Nat) => (some lo).bind fun a => (some hi).map fun b => a + ((i : α) + 1 / 2) * ((b - a) / ((50 : Nat) : α))) avg)
      (whereNumber ((List.range 50).map fun i => pyStd sqrt ((nanRows M (fun r => some (x r)) (some lo) (some hi) 50 i).map y)) avg) = binnedPoints sqrt M x y lo hi := by
  intro avg
  rw [whereNumber_map, whereNumber_map, whereNumber_map, numericPoints_map, List.filterMap_filter]
  unfold binnedPoints
  congr 1
  funext i
  rw [nanRows_some, average_rows, std_rows]
  split <;> simp

/-! ### Ranges -/

theorem foldl_nanMin (l : List α) (a : α) : (l.map some).foldl (fun a b => if nanLt b a then b else a) (some a) = some (l.foldl min a) := by
  induction l generalizing a with
  | nil => rfl
  | cons b l ih =>
    simp only [List.map_cons, List.foldl_cons, nanLt, decide_eq_true_eq]
    rw [← ih, min_def]
    congr 1
    by_cases h : b < a
    · rw [if_pos h, if_neg (not_le.2 h)]
    · rw [if_neg h, if_pos (not_lt.1 h)]

theorem foldl_nanMax (l : List α) (a : α) : (l.map some).foldl (fun a b => if nanLt a b then b else a) (some a) = some (l.foldl max a) := by
  induction l generalizing a with
  | nil => rfl
  | cons b l ih =>
    simp only [List.map_cons, List.foldl_cons, nanLt, decide_eq_true_eq]
    rw [← ih, max_def]
    congr 1
    by_cases h : a < b
    · rw [if_pos h, if_pos h.le]
    · rw [if_neg h]
      split
      · rename_i h'
        rw [le_antisymm h' (not_lt.1 h)]
      · rfl

/-- The least and the greatest element of a list. -/
theorem extremes_ok {l : List α} {lo hi : α} (h : ∀ v ∈ l, lo ≤ v ∧ v ≤ hi) (h1 : lo ∈ l) (h2 : hi ∈ l) :
    pyMinOf l = .ok lo ∧ pyMaxOf l = .ok hi ∧ nanMin (l.map some) = .ok (some lo) ∧ nanMax (l.map some) = .ok (some hi) := by
  cases l with
  | nil => cases h1
  | cons a t =>
    obtain ⟨m1, m2, m3⟩ := foldl_min_facts t a
    obtain ⟨M1, M2, M3⟩ := foldl_max_facts t a
    have e1 : t.foldl min a = lo := by
      apply le_antisymm
      · rcases List.mem_cons.1 h1 with rfl | h1
        · exact m1
        · exact m2 _ h1
      · rcases m3 with m3 | m3
        · rw [m3]; exact (h a (by simp)).1
        · exact (h _ (by simp [m3])).1
    have e2 : t.foldl max a = hi := by
      apply le_antisymm
      · rcases M3 with m3 | m3
        · rw [m3]; exact (h a (by simp)).2
        · exact (h _ (by simp [m3])).2
      · rcases List.mem_cons.1 h2 with rfl | h2
        · exact M1
        · exact M2 _ h2
    refine ⟨by rw [← e1]; rfl, by rw [← e2]; rfl, ?_, ?_⟩
    · show Except.ok _ = _
      rw [foldl_nanMin, e1]
    · show Except.ok _ = _
      rw [foldl_nanMax, e2]

theorem RangeOf.list {M : Nat} {x : Nat → α} {lo hi : α} (h : RangeOf M x lo hi) :
    (∀ v ∈ (List.range M).map x, lo ≤ v ∧ v ≤ hi) ∧ lo ∈ (List.range M).map x ∧ hi ∈ (List.range M).map x := by
  obtain ⟨h1, ⟨r, hr, e1⟩, ⟨s, hs, e2⟩⟩ := h
  refine ⟨?_, List.mem_map.2 ⟨r, List.mem_range.2 hr, e1⟩, List.mem_map.2 ⟨s, List.mem_range.2 hs, e2⟩⟩
  intro v hv
  obtain ⟨q, hq, rfl⟩ := List.mem_map.1 hv
  exact h1 q (List.mem_range.1 hq)

/-! ### One series -/

/-- When the variable is not constant some bin has a row. -/
theorem binnedPoints_ne {sqrt : α → α} {M : Nat} {x y : Nat → α} {lo hi : α} (h : RangeOf M x lo hi) (hv : lo < hi) : binnedPoints sqrt M x y lo hi ≠ [] := by
  obtain ⟨-, ⟨r, hr, e⟩, -⟩ := h
  have hin : InBin lo hi 50 0 (x r) := by
    rw [e]
    unfold InBin
    have : (0 : α) < (hi - lo) / ((50 : Nat) : α) := div_pos (by linarith) (by norm_num)
    constructor <;> simp
    linarith
  have hne : binRows M x lo hi 50 0 ≠ [] := by
    apply List.ne_nil_of_mem (a := r)
    unfold binRows
    rw [List.mem_filter]
    exact ⟨List.mem_range.2 hr, by simpa using hin⟩
  intro hnil
  unfold binnedPoints at hnil
  rw [List.filterMap_eq_nil_iff] at hnil
  have := hnil 0 (by simp)
  rw [if_neg hne] at this
  cases this

/-- What `plot_scatter` makes of the points of a single series: all error bars have the length of the first. -/
def withFirstError (pts : List (α × α × Option α)) : List (α × α × Option α) := pts.map fun q => (q.1, q.2.1, (pts.head?.map fun p : α × α × Option α => p.2.2).getD none)

theorem plotArray_eq {Y X yerr : List (Option α)} (h : numericPoints Y X yerr ≠ []) : plotArray Y X yerr = .ok (withFirstError (numericPoints Y X yerr)) := by
  unfold plotArray withFirstError
  cases hn : numericPoints Y X yerr with
  | nil => exact absurd hn h
  | cons p ps => simp

/-- One series over a variable that varies. -/
theorem binSeries_ok (sqrt : α → α) {M : Nat} {x y : Nat → α} {lo hi : α} (h : RangeOf M x lo hi) (hv : lo < hi) (Lo Hi : α) :
    ∃ s, binSeries sqrt ((List.range M).map y) ((List.range M).map fun r => some (x r)) (some Lo) (some Hi) = .ok (withFirstError (binnedPoints sqrt M x y lo hi), s) ∧
      numericPoints s.averages s.centres s.stds = binnedPoints sqrt M x y Lo Hi := by
  obtain ⟨g1, g2, g3⟩ := h.list
  obtain ⟨-, -, e3, e4⟩ := extremes_ok g1 g2 g3
  rw [List.map_map] at e3 e4
  refine ⟨_, bind_ok.2 ⟨_, e3, bind_ok.2 ⟨_, e4, bind_ok.2 ⟨_, binNan_ok sqrt M _ y 50 _ _, bind_ok.2 ⟨_, ?_, bind_ok.2 ⟨_, binNan_ok sqrt M _ y 50 _ _, rfl⟩⟩⟩⟩⟩, points_kept sqrt M x y Lo Hi⟩
  simp only
  rw [plotArray_eq (by rw [points_eq]; exact binnedPoints_ne h hv), points_eq]

/-- One series over a variable that is the same for all its match-ups, or always `nan`: nothing can be drawn. -/
theorem binSeries_constant (sqrt : α → α) {M : Nat} {x : Nat → Option α} {y : Nat → α} (h : ∀ r < M, x r = x 0) (Lo Hi : Option α) :
    ∃ e, binSeries sqrt ((List.range M).map y) ((List.range M).map x) Lo Hi = .error e := by
  cases hb : binSeries sqrt ((List.range M).map y) ((List.range M).map x) Lo Hi with
  | error e => exact ⟨e, rfl⟩
  | ok out =>
    exfalso
    unfold binSeries at hb
    obtain ⟨a, h1, hb⟩ := bind_ok.1 hb
    obtain ⟨b, h2, hb⟩ := bind_ok.1 hb
    obtain ⟨own, h3, hb⟩ := bind_ok.1 hb
    obtain ⟨pts, h4, hb⟩ := bind_ok.1 hb
    rw [binNan_ok] at h3
    cases h3
    have hx : (List.range M).map x = List.replicate M (x 0) := by
      apply List.ext_getElem
      · simp
      · intro i hi1 hi2
        simp only [List.length_map, List.length_range] at hi1
        simp [h i hi1]
    have hfold : ∀ (f : Option α → Option α → Option α) (n : Nat), (∀ v, f v v = v) → (List.replicate n (x 0)).foldl f (x 0) = x 0 := by
      intro f n hf
      induction n with
      | zero => rfl
      | succ n ih => rw [List.replicate_succ, List.foldl_cons, hf]; exact ih
    have hsame : ∀ v : Option α, nanLt v v = false := by
      intro v
      cases v <;> simp [nanLt]
    have hab : a = x 0 ∧ b = x 0 := by
      rw [hx] at h1 h2
      cases M with
      | zero => cases h1
      | succ M =>
        rw [List.replicate_succ] at h1 h2
        have e1 := Except.ok.inj h1
        have e2 := Except.ok.inj h2
        rw [hfold _ M (fun v => by simp)] at e1
        rw [hfold _ M (fun v => by simp)] at e2
        exact ⟨e1.symm, e2.symm⟩
    obtain ⟨rfl, rfl⟩ := hab
    have hnil : ∀ i, nanRows M x (x 0) (x 0) 50 i = [] := by
      intro i
      unfold nanRows
      rw [List.filter_eq_nil_iff]
      intro r hr
      rw [h r (List.mem_range.1 hr)]
      cases x 0 with
      | none => simp
      | some v => simp [InBin]
    simp only [hnil] at h4
    unfold plotArray at h4
    rw [numericPoints_map] at h4
    have : (List.range 50).filterMap (fun (i : Nat) => ((x 0).bind fun a => (x 0).map fun b => a + ((i : α) + 1 / 2) * ((b - a) / ((50 : Nat) : α))).bind fun u =>
        (pyAverage (List.map y [])).map fun v => (u, v, pyStd sqrt (List.map y []))) = [] := by
      rw [List.filterMap_eq_nil_iff]
      intro i _
      simp [pyAverage]
    rw [this] at h4
    cases h4

end Verif
