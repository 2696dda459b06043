import Verif.Model.Stats
import Verif.Props.Simulate
import Mathlib.Algebra.Order.Floor.Ring
/-
Property C50: averages in bins. 
-/
set_option autoImplicit false
namespace Verif

variable {α : Type} [Field α] [LinearOrder α] [IsStrictOrderedRing α]

theorem mapM_congr_mem {β γ : Type} {f h : β → Py γ} : ∀ {l : List β}, (∀ a ∈ l, f a = h a) → l.mapM f = l.mapM h
  | [], _ => rfl
  | a :: l, hl => by
    rw [List.mapM_cons, List.mapM_cons, hl a (by simp), mapM_congr_mem (l := l) fun x hx => hl x (by simp [hx])]

/-- The point `x` lies in bin `i` of `n` equal bins between `lo` and `hi`: closed below, open above. -/
def InBin (lo hi : α) (n i : Nat) (x : α) : Prop := lo + (i : α) * ((hi - lo) / (n : α)) ≤ x ∧ x < lo + ((i : α) + 1) * ((hi - lo) / (n : α))

instance (lo hi : α) (n i : Nat) (x : α) : Decidable (InBin lo hi n i x) := by unfold InBin; infer_instance

omit [Field α] [IsStrictOrderedRing α] in
theorem whereIdx_mem {β : Type} {l : List β} {p : β → Bool} {j : Nat} : j ∈ whereIdx l p ↔ ∃ x, l[j]? = some x ∧ p x = true := by
  unfold whereIdx
  simp only [List.mem_map, List.mem_filter, Prod.exists, List.mem_zipIdx_iff_getElem?]
  constructor
  · rintro ⟨x, k, ⟨h1, h2⟩, rfl⟩; exact ⟨x, h1, h2⟩
  · rintro ⟨x, h1, h2⟩; exact ⟨x, j, ⟨h1, h2⟩, rfl⟩

theorem whereIdx_nodup {β : Type} (l : List β) (p : β → Bool) : (whereIdx l p).Nodup := by
  unfold whereIdx
  have : (l.zipIdx.filter fun xi => p xi.1).Pairwise (fun a b => a.2 ≠ b.2) := by
    refine List.Pairwise.filter _ ?_
    rw [← List.pairwise_map (f := Prod.snd) (R := fun a b => a ≠ b)]
    simp only [List.zipIdx_map_snd]
    exact List.nodup_range'
  rw [List.Nodup, List.pairwise_map]
  exact this

omit [LinearOrder α] [IsStrictOrderedRing α] in
theorem binEdges_get {lo hi : α} {n i : Nat} (h : i ≤ n) : (binEdges lo hi n)[i]? = some (lo + (i : α) * (hi - lo) / (n : α)) := by
  unfold binEdges
  rw [List.getElem?_map, List.getElem?_range (by omega)]; rfl

/-- Every point of the range but the upper end is in exactly one bin; a point outside is in none. -/
theorem inBin_unique {lo hi x : α} {n : Nat} (hn : 0 < n) (hx : lo ≤ x ∧ x < hi) : ∃! i, i < n ∧ InBin lo hi n i x := by
  have hnp : (0 : α) < n := by exact_mod_cast hn
  obtain ⟨w, hw⟩ : ∃ w, w = (hi - lo) / (n : α) := ⟨_, rfl⟩
  have hwn : (n : α) * w = hi - lo := by rw [hw]; field_simp
  have hwp : 0 < w := by rw [hw]; exact div_pos (by linarith [hx.1, hx.2]) hnp
  unfold InBin
  rw [← hw]
  have hex : ∀ k, k ≤ n → (∃ i, i < k ∧ lo + (i : α) * w ≤ x ∧ x < lo + ((i : α) + 1) * w) ∨ lo + (k : α) * w ≤ x := by
    intro k
    induction k with
    | zero => intro _; right; simpa using hx.1
    | succ k ih =>
      intro hk
      rcases ih (by omega) with ⟨i, h1, h2⟩ | h
      · exact .inl ⟨i, by omega, h2⟩
      · by_cases hh : x < lo + ((k : α) + 1) * w
        · exact .inl ⟨k, by omega, h, hh⟩
        · right; push_cast; exact not_lt.1 hh
  rcases hex n le_rfl with ⟨i, h1, h2, h3⟩ | h
  · refine ⟨i, ⟨h1, h2, h3⟩, ?_⟩
    rintro j ⟨-, j2, j3⟩
    by_contra hne
    rcases Nat.lt_or_gt_of_ne hne with hlt | hgt
    · have : (j : α) + 1 ≤ i := by exact_mod_cast hlt
      nlinarith [mul_le_mul_of_nonneg_right this hwp.le]
    · have : (i : α) + 1 ≤ j := by exact_mod_cast hgt
      nlinarith [mul_le_mul_of_nonneg_right this hwp.le]
  · exfalso
    rw [hwn] at h
    linarith [hx.2]

theorem inBin_range {lo hi x : α} {n i : Nat} (hlo : lo ≤ hi) (hi' : i < n) (h : InBin lo hi n i x) : lo ≤ x ∧ x < hi := by
  have hnp : (0 : α) < n := by exact_mod_cast (by omega : 0 < n)
  obtain ⟨w, hw⟩ : ∃ w, w = (hi - lo) / (n : α) := ⟨_, rfl⟩
  have hwn : (n : α) * w = hi - lo := by rw [hw]; field_simp
  have hwp : 0 ≤ w := by rw [hw]; exact div_nonneg (by linarith) hnp.le
  unfold InBin at h
  rw [← hw] at h
  have h1 : (0 : α) ≤ i := by positivity
  have h2 : (i : α) + 1 ≤ n := by exact_mod_cast hi'
  constructor
  · nlinarith [mul_nonneg h1 hwp]
  · nlinarith [mul_le_mul_of_nonneg_right h2 hwp]

/-- What `bin` computes: the average and standard deviation of the values of the points in each bin. -/
theorem bin_ok {sqrt : α → α} {Y X : List α} {n : Nat} {range : Option (α × α)} {lo hi : α} (hr : binRange X range = .ok (lo, hi)) (hYX : X.length ≤ Y.length) :
    ∃ out, bin sqrt Y X n range = .ok out ∧ out.average.length = n ∧ out.std.length = n ∧ out.centre.length = n ∧
      ∀ i, i < n → ∃ js : List Nat, js.Nodup ∧ (∀ j, j ∈ js ↔ ∃ x, X[j]? = some x ∧ InBin lo hi n i x) ∧
        out.average[i]? = some (pyAverage (js.map fun j => Y.getD j 0)) ∧ out.std[i]? = some (pyStd sqrt (js.map fun j => Y.getD j 0)) ∧
        out.centre[i]? = some (lo + ((i : α) + 1 / 2) * ((hi - lo) / (n : α))) := by
  have hvals : ∀ a b : α, binVals Y X a b = .ok ((whereIdx X fun x => decide (a ≤ x) && decide (x < b)).map fun j => Y.getD j 0) := by
    intro a b
    unfold binVals
    apply mapM_ok_of
    intro j hj
    obtain ⟨x, hx, -⟩ := whereIdx_mem.1 hj
    have : j < Y.length := by have := (List.getElem?_eq_some_iff.1 hx).1; omega
    simp [pyGet, List.getD, List.getElem?_eq_getElem this]
  have hedge : ∀ i, i < n → ((binEdges lo hi n).zip (binEdges lo hi n).tail)[i]? =
      some (lo + (i : α) * ((hi - lo) / (n : α)), lo + ((i : α) + 1) * ((hi - lo) / (n : α))) := by
    intro i hi'
    rw [List.getElem?_zip_eq_some, List.getElem?_tail, binEdges_get (by omega), binEdges_get (by omega)]
    push_cast
    exact ⟨by congr 1; ring, by congr 1; ring⟩
  have hlen : ((binEdges lo hi n).zip (binEdges lo hi n).tail).length = n := by simp [binEdges]
  obtain ⟨g, hg⟩ : ∃ g : α × α → List α, g = fun ab => (whereIdx X fun x => decide (ab.1 ≤ x) && decide (x < ab.2)).map fun j => Y.getD j 0 := ⟨_, rfl⟩
  obtain ⟨E, hE⟩ : ∃ E, E = (binEdges lo hi n).zip (binEdges lo hi n).tail := ⟨_, rfl⟩
  rw [← hE] at hlen hedge
  have hrun : bin sqrt Y X n range = .ok { average := (E.map g).map pyAverage, std := (E.map g).map (pyStd sqrt), centre := E.map fun ab => (ab.2 + ab.1) / 2 } := by
    unfold bin
    refine bind_ok.2 ⟨_, hr, bind_ok.2 ⟨E.map g, ?_, ?_⟩⟩
    · rw [← hE]
      exact mapM_ok_of (fun ab _ => by rw [hg]; exact hvals ab.1 ab.2)
    · simp only [← hE]; rfl
  refine ⟨_, hrun, by simp [hlen], by simp [hlen], by simp [hlen], ?_⟩
  intro i hi'
  refine ⟨whereIdx X fun x => decide (lo + (i : α) * ((hi - lo) / (n : α)) ≤ x) && decide (x < lo + ((i : α) + 1) * ((hi - lo) / (n : α))), whereIdx_nodup X _, ?_, ?_, ?_, ?_⟩
  · intro j
    rw [whereIdx_mem]
    simp [InBin]
  · simp only [List.getElem?_map, hedge i hi', Option.map_some, hg]
  · simp only [List.getElem?_map, hedge i hi', Option.map_some, hg]
  · simp only [List.getElem?_map, hedge i hi', Option.map_some]
    congr 1; ring

/-- **C50 (part).** With a given range, every bin is one of `n` intervals of equal width; its average and deviation are those of the points inside; every point in the
range except the upper end is in exactly one bin, and no other point is in any. Missing from C50: the upper end. -/
theorem C50_bins_partial (sqrt : α → α) {Y X : List α} {n : Nat} {lo hi : α} (hYX : X.length = Y.length) (hn : 0 < n) (hlo : lo < hi) :
    ∃ out, bin sqrt Y X n (some (lo, hi)) = .ok out ∧ out.average.length = n ∧ out.std.length = n ∧
      (∀ i, i < n → ∃ js : List Nat, js.Nodup ∧ (∀ j, j ∈ js ↔ ∃ x, X[j]? = some x ∧ InBin lo hi n i x) ∧
        out.average[i]? = some (pyAverage (js.map fun j => Y.getD j 0)) ∧ out.std[i]? = some (pyStd sqrt (js.map fun j => Y.getD j 0)) ∧
        out.centre[i]? = some (lo + ((i : α) + 1 / 2) * ((hi - lo) / (n : α)))) ∧
      (∀ x ∈ X, lo ≤ x → x < hi → ∃! i, i < n ∧ InBin lo hi n i x) ∧
      ∀ x ∈ X, (x < lo ∨ hi ≤ x) → ∀ i, i < n → ¬ InBin lo hi n i x := by
  obtain ⟨out, h1, h2, h3, h4, h5⟩ := bin_ok (sqrt := sqrt) (n := n) (Y := Y) (X := X) (range := some (lo, hi)) rfl hYX.le
  refine ⟨out, h1, h2, h3, h5, fun x _ h1 h2 => inBin_unique hn ⟨h1, h2⟩, ?_⟩
  intro x _ hx i hi' hb
  have := inBin_range hlo.le hi' hb
  rcases hx with h | h
  · exact absurd this.1 (not_le.2 h)
  · exact absurd this.2 (not_lt.2 h)

/-- **C50 is false of the code.** With the range taken from the data (the default, and the use in the plots) every point at which `X` is greatest is left out: the
result does not depend on its value. -/
theorem C50_max_lost (sqrt : α → α) {Y Y' X : List α} {n : Nat} {out : Binned α} (hY : X.length = Y.length) (hY' : X.length = Y'.length)
    (hsame : ∀ (j : Nat) (x : α), X[j]? = some x → (∃ y ∈ X, x < y) → Y[j]? = Y'[j]?) (h : bin sqrt Y X n none = .ok out) : bin sqrt Y' X n none = .ok out := by
  unfold bin at h
  obtain ⟨⟨lo, hi⟩, hr, -⟩ := bind_ok.1 h
  have hhi : ∀ x ∈ X, lo ≤ x ∧ x ≤ hi := by
    cases X with
    | nil => intro x hx; cases hx
    | cons a t =>
      have hr' : (lo, hi) = (t.foldl min a, t.foldl max a) := by cases hr; rfl
      simp only [Prod.mk.injEq] at hr'
      obtain ⟨m1, m2, -⟩ := foldl_min_facts t a
      obtain ⟨M1, M2, -⟩ := foldl_max_facts t a
      intro x hx
      rw [hr'.1, hr'.2]
      rcases List.mem_cons.1 hx with rfl | hx
      · exact ⟨m1, M1⟩
      · exact ⟨m2 x hx, M2 x hx⟩
  have hmax : X ≠ [] → hi ∈ X := by
    intro hne
    cases X with
    | nil => exact absurd rfl hne
    | cons a t =>
      have hr' : (lo, hi) = (t.foldl min a, t.foldl max a) := by cases hr; rfl
      simp only [Prod.mk.injEq] at hr'
      rw [hr'.2, List.mem_cons]
      exact (foldl_max_facts t a).2.2
  have key : ∀ i, i < n → binVals Y' X (lo + (i : α) * ((hi - lo) / (n : α))) (lo + ((i : α) + 1) * ((hi - lo) / (n : α))) =
      binVals Y X (lo + (i : α) * ((hi - lo) / (n : α))) (lo + ((i : α) + 1) * ((hi - lo) / (n : α))) := by
    intro i hi'
    unfold binVals
    apply mapM_congr_mem
    intro j hj
    obtain ⟨x, hx, hp⟩ := whereIdx_mem.1 hj
    have hxm := List.mem_of_getElem? hx
    have hlohi : lo ≤ hi := (hhi x hxm).1.trans (hhi x hxm).2
    have hb : InBin lo hi n i x := by simpa [InBin] using hp
    have := (inBin_range hlohi hi' hb).2
    unfold pyGet
    rw [hsame j x hx ⟨hi, hmax (List.ne_nil_of_mem hxm), this⟩]
  have hm : ((binEdges lo hi n).zip (binEdges lo hi n).tail).mapM (fun ab => binVals Y' X ab.1 ab.2) =
      ((binEdges lo hi n).zip (binEdges lo hi n).tail).mapM (fun ab => binVals Y X ab.1 ab.2) := by
    apply mapM_congr_mem
    intro ab hab
    obtain ⟨i, hi'⟩ := List.getElem?_of_mem hab
    have hil : i < n := by have := (List.getElem?_eq_some_iff.1 hi').1; simpa [binEdges] using this
    rw [List.getElem?_zip_eq_some, List.getElem?_tail, binEdges_get (by omega), binEdges_get (by omega)] at hi'
    have e1 : ab.1 = lo + (i : α) * ((hi - lo) / (n : α)) := by rw [← Option.some.inj hi'.1]; ring
    have e2 : ab.2 = lo + ((i : α) + 1) * ((hi - lo) / (n : α)) := by rw [← Option.some.inj hi'.2]; push_cast; ring
    rw [e1, e2]
    exact key i hil
  unfold bin
  rw [hr] at h ⊢
  simp only [bind, Except.bind] at h ⊢
  rw [hm]
  exact h

/-- A concrete case: of the points 0, 1, 2, 3, 4 in two bins, the last is in no bin; its value does not matter. -/
theorem C50_case : bin (fun x : ℚ => x) [10, 20, 30, 40, 50] [0, 1, 2, 3, 4] 2 none = .ok { average := [some 15, some 35], std := [some 25, some 25], centre := [1, 3] } ∧
    bin (fun x : ℚ => x) [10, 20, 30, 40, 1000] [0, 1, 2, 3, 4] 2 none = .ok { average := [some 15, some 35], std := [some 25, some 25], centre := [1, 3] } := by
  decide +kernel

end Verif
