import Verif.Model.Op
import Verif.Lemmas.ReaderOpen
import Verif.Props.GNTotal
import Mathlib.Algebra.CharZero.Defs
import Mathlib.Data.Nat.Cast.Basic
import Mathlib.Algebra.Field.Basic
import Mathlib.Algebra.Order.Field.Basic
import Mathlib.Algebra.Order.BigOperators.Ring.Finset
import Mathlib.Algebra.BigOperators.Group.List.Lemmas
import Mathlib.Algebra.BigOperators.Ring.List
import Mathlib.Algebra.Order.BigOperators.Group.List
import Mathlib.Tactic.FieldSimp
import Mathlib.Tactic.Ring
import Mathlib.Tactic.LinearCombination
import Mathlib.Tactic.IntervalCases
import Mathlib.Tactic.Positivity
import Mathlib.Tactic.Linarith
import Mathlib.Algebra.Order.Ring.Rat
import Mathlib.Algebra.Field.Rat
/-
Properties C52, C65, C66 (Monte Carlo trials) and C53 (elements of the covariance matrix).
-/
set_option autoImplicit false
namespace Verif

/-- Specification: the arithmetic mean of a sample. -/
def sampleMean {α : Type} [Field α] (l : List α) : α := l.sum / (l.length : α)

/-- Specification: the unbiased variance of a sample of at least two numbers; a single number has variance zero. -/
def sampleVariance {α : Type} [Field α] (l : List α) : α :=
  if l.length = 1 then 0 else (l.map fun x => (x - sampleMean l) ^ 2).sum / ((l.length : α) - 1)

section
variable {α : Type} [Field α]

theorem sum_sq_dev (l : List α) (m : α) : (l.map fun x => (x - m) ^ 2).sum = (l.map fun x => x ^ 2).sum - 2 * m * l.sum + (l.length : α) * m ^ 2 := by
  induction l with
  | nil => simp
  | cons a l ih => simp only [List.map_cons, List.sum_cons, ih, List.length_cons]; push_cast; ring

theorem ok_bind' {β γ : Type} (a : β) (f : β → Py γ) : (Except.ok a >>= f : Py γ) = f a := rfl

theorem arr2_ok {f : α → α → α} {a b : List α} (h : a.length = b.length) : arr2 f a b = .ok (List.zipWith f a b) := by
  unfold arr2; rw [if_pos h]

/-- The state of the loop after the trials `seen`. -/
structure McInv (L : Nat) (seen : List (List α)) (st : List α × List α) : Prop where
  le : st.1.length = L
  lv : st.2.length = L
  mean : ∀ j < L, (seen.length : α) * st.1.getD j 0 = (colOf seen j).sum
  var : ∀ j < L, (seen.length : α) * (((seen.length : α) - 1) * st.2.getD j 0) = (seen.length : α) * ((colOf seen j).map fun x => x ^ 2).sum - (colOf seen j).sum ^ 2

theorem colOf_append (a : List (List α)) (x : List α) (j : Nat) : colOf (a ++ [x]) j = colOf a j ++ [x.getD j 0] := by simp [colOf]

theorem mcStep_ok [CharZero α] {L : Nat} {seen : List (List α)} {st : List α × List α} {x : List α} (hs : seen ≠ []) (hx : x.length = L) (h : McInv L seen st) :
    ∃ st', mcStep (seen.length + 1) st x = .ok st' ∧ McInv L (seen ++ [x]) st' := by
  obtain ⟨e, v⟩ := st
  have hle : e.length = L := h.le
  have hlv : v.length = L := h.lv
  unfold mcStep
  rw [arr2_ok (by simp [hle, hx]), ok_bind', arr2_ok (by simp [hle, hx]), ok_bind', arr2_ok (by simp [hle, hx]), ok_bind',
    arr2_ok (by simp [hle, hlv, hx]), ok_bind', arr2_ok (by simp [hle, hlv, hx]), ok_bind']
  refine ⟨_, rfl, ⟨by simp [hle, hx], by simp [hle, hlv, hx], ?_, ?_⟩⟩
  · intro j hj
    have hm := h.mean j hj
    have hn : (seen.length : α) + 1 ≠ 0 := by exact_mod_cast Nat.succ_ne_zero seen.length
    rw [colOf_append, List.sum_append]
    simp only [List.sum_cons, List.sum_nil, add_zero, List.length_append, List.length_cons, List.length_nil, zero_add]
    rw [← hm]
    simp only [List.getD_eq_getElem?_getD, List.getElem?_zipWith]
    rw [List.getElem?_eq_getElem (by omega), List.getElem?_eq_getElem (by omega)]
    simp only [Option.map₂_some_some, Option.getD_some]
    push_cast
    field_simp
    ring
  · intro j hj
    have hm := h.mean j hj
    have hv := h.var j hj
    have hn : (seen.length : α) + 1 ≠ 0 := by exact_mod_cast Nat.succ_ne_zero seen.length
    have hn0 : (seen.length : α) ≠ 0 := by
      have : seen.length ≠ 0 := by simpa using hs
      exact_mod_cast this
    rw [colOf_append, List.sum_append, List.map_append, List.sum_append]
    simp only [List.sum_cons, List.sum_nil, add_zero, List.length_append, List.length_cons, List.length_nil, zero_add, List.map_cons, List.map_nil]
    rw [← hm]
    simp only [List.getD_eq_getElem?_getD, List.getElem?_zipWith, List.getElem?_map]
    simp only [List.getD_eq_getElem?_getD] at hv hm
    rw [List.getElem?_eq_getElem (show j < e.length by omega)] at *
    rw [List.getElem?_eq_getElem (show j < v.length by omega)] at *
    rw [List.getElem?_eq_getElem (show j < x.length by omega)] at *
    simp only [Option.map₂_some_some, Option.getD_some, Option.map_some] at *
    rw [← hm] at hv
    push_cast
    generalize hS : ((colOf seen j).map fun x => x ^ 2).sum = S at *
    generalize e[j] = ej at *
    generalize v[j] = vj at *
    generalize x[j] = xj at *
    generalize (seen.length : α) = n at *
    have hS' : S = (n - 1) * vj + n * ej ^ 2 := mul_left_cancel₀ hn0 (by linear_combination -hv)
    have e1 : n + 1 - 1 = n := by ring
    rw [hS', e1]
    field_simp
    ring

theorem mcLoop_ok [CharZero α] {L : Nat} : ∀ {xs seen : List (List α)} {st : List α × List α}, seen ≠ [] → (∀ x ∈ xs, x.length = L) → McInv L seen st →
    ∃ st', mcLoop seen.length st xs = .ok st' ∧ McInv L (seen ++ xs) st'
  | [], seen, st, _, _, h => ⟨st, rfl, by simpa using h⟩
  | x :: xs, seen, st, hs, hx, h => by
    obtain ⟨st', h1, h2⟩ := mcStep_ok hs (hx x (by simp)) h
    obtain ⟨st'', h3, h4⟩ := mcLoop_ok (xs := xs) (seen := seen ++ [x]) (by simp) (fun y hy => hx y (by simp [hy])) h2
    refine ⟨st'', ?_, by simpa using h4⟩
    unfold mcLoop
    rw [h1, ok_bind']
    simpa using h3

/-- **C52.** Combining Monte Carlo trials one by one: the running estimate and the running variance of every residual are the sample mean and the
unbiased sample variance of that residual over all trials. -/
theorem C52_batch [CharZero α] {trials : List (List α)} {L : Nat} (hne : trials ≠ []) (hL : ∀ t ∈ trials, t.length = L) :
    ∃ e v, mcCombine trials = .ok (e, v) ∧ e.length = L ∧ v.length = L ∧
      ∀ j < L, e.getD j 0 = sampleMean (trials.map fun t => t.getD j 0) ∧ v.getD j 0 = sampleVariance (trials.map fun t => t.getD j 0) := by
  obtain ⟨x, xs, rfl⟩ := List.exists_cons_of_ne_nil hne
  have h0 : McInv L [x] (x, x.map fun _ => (0 : α)) := by
    refine ⟨hL x (by simp), by simpa using hL x (by simp), ?_, ?_⟩ <;> intro j hj <;> simp [colOf]
  obtain ⟨⟨e, v⟩, h1, h2⟩ := mcLoop_ok (xs := xs) (by simp) (fun y hy => hL y (by simp [hy])) h0
  refine ⟨e, v, h1, h2.le, h2.lv, fun j hj => ?_⟩
  have hm := h2.mean j hj
  have hv := h2.var j hj
  simp only [List.singleton_append] at hm hv
  have hc : (x :: xs).map (fun t => t.getD j 0) = colOf (x :: xs) j := rfl
  have hlen : (colOf (x :: xs) j).length = (x :: xs).length := by simp [colOf]
  have hn0 : ((x :: xs).length : α) ≠ 0 := by
    exact_mod_cast Nat.succ_ne_zero xs.length
  rw [hc]
  refine ⟨?_, ?_⟩
  · unfold sampleMean; rw [hlen, ← hm]; field_simp
  · unfold sampleVariance
    rw [hlen]
    cases xs with
    | nil =>
      have h3 : (x, x.map fun _ => (0 : α)) = (e, v) := by simpa [mcLoop] using h1
      have hv' : v = x.map fun _ => (0 : α) := by rw [Prod.mk.injEq] at h3; exact h3.2.symm
      rw [if_pos (by simp), hv']
      simp only [List.getD_eq_getElem?_getD, List.getElem?_map]
      cases x[j]? <;> simp
    | cons y ys =>
      rw [if_neg (by simp)]
      have hn1 : ((x :: y :: ys).length : α) - 1 ≠ 0 := by
        have : ((x :: y :: ys).length : α) - 1 = ((ys.length + 1 : Nat) : α) := by simp
        rw [this]; exact_mod_cast Nat.succ_ne_zero ys.length
      rw [sum_sq_dev, hlen]
      unfold sampleMean
      rw [hlen, eq_div_iff hn1]
      apply mul_left_cancel₀ hn0
      have := hv
      field_simp
      linear_combination this

/-- **C52.** The order of the trials does not matter. -/
theorem C52_order [CharZero α] {trials trials' : List (List α)} {L : Nat} (hL : ∀ t ∈ trials, t.length = L) (hp : trials.Perm trials') :
    mcCombine trials = mcCombine trials' := by
  by_cases hne : trials = []
  · subst hne; rw [List.nil_perm.1 hp]
  · have hne' : trials' ≠ [] := by rintro rfl; exact hne (List.perm_nil.1 hp)
    obtain ⟨e, v, h1, h2, h3, h4⟩ := C52_batch hne hL
    obtain ⟨e', v', h1', h2', h3', h4'⟩ := C52_batch (L := L) hne' (fun t ht => hL t (hp.mem_iff.2 ht))
    rw [h1, h1']
    have hs : ∀ j, (trials.map fun t => t.getD j 0).Perm (trials'.map fun t => t.getD j 0) := fun j => hp.map _
    have hm : ∀ j, sampleMean (trials.map fun t => t.getD j 0) = sampleMean (trials'.map fun t => t.getD j 0) := by
      intro j; unfold sampleMean; rw [(hs j).sum_eq, (hs j).length_eq]
    have hv : ∀ j, sampleVariance (trials.map fun t => t.getD j 0) = sampleVariance (trials'.map fun t => t.getD j 0) := by
      intro j; unfold sampleVariance; rw [hm j, ((hs j).map _).sum_eq, (hs j).length_eq]
    have he : e = e' := by
      apply List.ext_getElem (by omega)
      intro j h5 h6
      have a := (h4 j (by omega)).1
      have b := (h4' j (by omega)).1
      rw [hm j, ← b] at a
      simpa [List.getD_eq_getElem?_getD, List.getElem?_eq_getElem h5, List.getElem?_eq_getElem h6] using a
    have hv' : v = v' := by
      apply List.ext_getElem (by omega)
      intro j h5 h6
      have a := (h4 j (by omega)).2
      have b := (h4' j (by omega)).2
      rw [hv j, ← b] at a
      simpa [List.getD_eq_getElem?_getD, List.getElem?_eq_getElem h5, List.getElem?_eq_getElem h6] using a
    rw [he, hv']

/-- Without trials there is nothing to normalise with: `UnboundLocalError`. -/
theorem C52_no_trials_fails : mcCombine ([] : List (List α)) = .error .unboundLocalError := rfl

end

theorem C52_case : mcCombine ([[1, 10], [2, 20], [6, 60]] : List (List ℚ)) = .ok ([3, 30], [7, 700]) := by decide +kernel

section
variable {α : Type} [Field α] [DecidableEq α]

theorem mcRow_some {n : Nat} {p : List α} (h : p.length = n) : mcRow n (some p) = .ok p := by
  unfold mcRow setSlice slice
  simp [h]

/-- **C65.** The parameter sets entering the Monte Carlo statistics are those of the trials with an output file, in order; failed trials leave no
trace.  (The first trial must have succeeded, and a successful trial must not have every parameter equal to zero.) -/
theorem C65_failed_trials_partial {p0 : List α} {trials : List (Option (List α))} (hL : ∀ p, some p ∈ some p0 :: trials → p.length = p0.length)
    (hz : ∀ p, some p ∈ some p0 :: trials → ∃ x ∈ p, x ≠ 0) :
    getParametersMc (some p0 :: trials) = .ok ((some p0 :: trials).filterMap id) := by
  have hrow : ∀ ts : List (Option (List α)), (∀ p, some p ∈ ts → p.length = p0.length) → (∀ p, some p ∈ ts → ∃ x ∈ p, x ≠ 0) →
      ∃ rows, ts.mapM (mcRow p0.length) = .ok rows ∧ rows.filter (fun r => !allZero r) = ts.filterMap id := by
    intro ts
    induction ts with
    | nil => intro _ _; exact ⟨[], rfl, rfl⟩
    | cons t ts ih =>
      intro h1 h2
      obtain ⟨rows, h3, h4⟩ := ih (fun p hp => h1 p (by simp [hp])) (fun p hp => h2 p (by simp [hp]))
      cases t with
      | none =>
        refine ⟨List.replicate p0.length 0 :: rows, ?_, ?_⟩
        · rw [List.mapM_cons, h3]; rfl
        · rw [List.filter_cons_of_neg (by simp [allZero])]; simpa using h4
      | some p =>
        refine ⟨p :: rows, ?_, ?_⟩
        · rw [List.mapM_cons, mcRow_some (h1 p (by simp)), h3]; rfl
        · rw [List.filter_cons_of_pos]
          · simpa using h4
          · obtain ⟨x, hx, hx0⟩ := h2 p (by simp)
            simp only [allZero, Bool.not_eq_true', List.all_eq_false]
            exact ⟨x, hx, by simpa using hx0⟩
  obtain ⟨rows, h1, h2⟩ := hrow _ hL hz
  unfold getParametersMc
  simp only [h1]
  rw [ok_bind', h2]; rfl

/-- **C65 is false of the code** for a trial that failed and is listed first. -/
theorem C65_first_failed (trials : List (Option (List α))) : getParametersMc (none :: trials) = .error .runtimeError := rfl

/-- **C65 is false of the code** for a successful trial whose parameters are all zero: it is dropped with the failed ones. -/
theorem C65_zero_trial_dropped {p0 : List α} (h : ∃ x ∈ p0, x ≠ 0) :
    getParametersMc [some p0, some (List.replicate p0.length 0)] = .ok [p0] := by
  unfold getParametersMc
  have h2 : (allZero p0) = false := by
    obtain ⟨x, hx, hx0⟩ := h
    simp only [allZero, List.all_eq_false]
    exact ⟨x, hx, by simpa using hx0⟩
  simp only [List.mapM_cons, List.mapM_nil]
  rw [mcRow_some rfl, mcRow_some (by simp)]
  simp only [ok_bind', pure_bind]
  rw [List.filter_cons_of_pos (by simp [h2]), List.filter_cons_of_neg (by simp [allZero])]
  rfl

theorem C65_case : getParametersMc ([some [1, 2], none, some [0, 5]] : List (Option (List ℚ))) = .ok [[1, 2], [0, 5]] := by decide +kernel

end

section
variable {α : Type} [Field α]

/-- **C66.** The Monte Carlo covariance matrix is symmetric. -/
theorem C66_symmetric (a : List (List α)) (i j : Nat) : mcCov a i j = mcCov a j i := by
  unfold mcCov
  congr 2
  exact List.map_congr_left fun r _ => mul_comm _ _

/-- **C66.** Its diagonal is the unbiased sample variance of the parameter over the trials (two or more). -/
theorem C66_diagonal {a : List (List α)} (h : 2 ≤ a.length) (i : Nat) : mcCov a i i = sampleVariance (a.map fun r => r.getD i 0) := by
  unfold mcCov sampleVariance sampleMean npMean colOf
  rw [if_neg (by simp; omega)]
  simp only [List.length_map, List.map_map]
  congr 2
  exact List.map_congr_left fun r _ => by simp only [Function.comp]; ring

/-- **C66.** The standard deviation saved with it is not that of the covariance matrix: its square is `(n - 1) / n` of the diagonal. -/
theorem C66_std_differs [CharZero α] {a : List (List α)} (h : 2 ≤ a.length) (i : Nat) :
    mcStdSq a i = ((a.length : α) - 1) / (a.length : α) * mcCov a i i ∧ (mcCov a i i ≠ 0 → mcStdSq a i ≠ mcCov a i i) := by
  have h0 : (a.length : α) ≠ 0 := by
    have : a.length ≠ 0 := by omega
    exact_mod_cast this
  have h1 : (a.length : α) - 1 ≠ 0 := by
    have : ((a.length : α)) ≠ ((1 : Nat) : α) := by
      have : a.length ≠ 1 := by omega
      exact_mod_cast this
    intro h; apply this; push_cast; linear_combination h
  have e : mcStdSq a i = ((a.length : α) - 1) / (a.length : α) * mcCov a i i := by
    unfold mcStdSq mcCov
    have : ((colOf a i).map fun x => (x - npMean (colOf a i)) ^ 2).sum = (a.map fun r => (r.getD i 0 - npMean (colOf a i)) * (r.getD i 0 - npMean (colOf a i))).sum := by
      unfold colOf; rw [List.map_map]; congr 1
      exact List.map_congr_left fun r _ => by simp only [Function.comp]; ring
    rw [this]
    field_simp
  refine ⟨e, fun hc heq => ?_⟩
  rw [heq] at e
  have : (a.length : α) * mcCov a i i = ((a.length : α) - 1) * mcCov a i i := by
    field_simp at e
    linear_combination mcCov a i i * e
  apply hc
  linear_combination this

theorem sum_map_mul_sum {β : Type} (n : Nat) (w : Nat → α) (a : List β) (d : β → Nat → α) :
    (∑ i ∈ Finset.range n, ∑ j ∈ Finset.range n, w i * (a.map fun r => d r i * d r j).sum * w j) =
      (a.map fun r => (∑ i ∈ Finset.range n, w i * d r i) ^ 2).sum := by
  induction a with
  | nil => simp
  | cons r a ih =>
    simp only [List.map_cons, List.sum_cons]
    rw [← ih, pow_two, Finset.sum_mul_sum, ← Finset.sum_add_distrib]
    refine Finset.sum_congr rfl fun i _ => ?_
    rw [← Finset.sum_add_distrib]
    exact Finset.sum_congr rfl fun j _ => by ring

/-- **C66.** The Monte Carlo covariance matrix of two or more trials is positive semi-definite. -/
theorem C66_positive {α : Type} [Field α] [LinearOrder α] [IsStrictOrderedRing α] {a : List (List α)} (h : 2 ≤ a.length) (n : Nat) (w : Nat → α) :
    0 ≤ ∑ i ∈ Finset.range n, ∑ j ∈ Finset.range n, w i * mcCov a i j * w j := by
  have h1 : (0 : α) < (a.length : α) - 1 := by
    have : ((1 : Nat) : α) < (a.length : α) := by exact_mod_cast (by omega : 1 < a.length)
    push_cast at this; linarith
  have e : ∀ i j, w i * mcCov a i j * w j = w i * (a.map fun r => (r.getD i 0 - npMean (colOf a i)) * (r.getD j 0 - npMean (colOf a j))).sum * w j / ((a.length : α) - 1) := by
    intro i j; unfold mcCov; ring
  simp only [e, ← Finset.sum_div]
  rw [sum_map_mul_sum n w a (fun r i => r.getD i 0 - npMean (colOf a i))]
  apply div_nonneg _ h1.le
  apply List.sum_nonneg
  intro x hx
  obtain ⟨r, _, rfl⟩ := List.mem_map.1 hx
  positivity

end

theorem C66_case : mcCov ([[1, 5], [3, 9], [5, 1]] : List (List ℚ)) 0 1 = -4 ∧ mcCov ([[1, 5], [3, 9], [5, 1]] : List (List ℚ)) 0 0 = 4 ∧
    mcStdSq ([[1, 5], [3, 9], [5, 1]] : List (List ℚ)) 0 = 8 / 3 := by decide +kernel

end Verif
