import Verif.Spec.Checker
import Verif.Lemmas.ReaderOpen
/-
Helper lemmas for the input-file checker: what the absence of messages says.
-/
set_option autoImplicit false
namespace Verif
variable {α : Type}

theorem complainIf_nil {c : Bool} {e : Complaint} : complainIf c e = [] ↔ c = false := by
  cases c <;> simp [complainIf]

theorem RawFile.var_ok {f : RawFile α} {n : String} {v : RawVar α} : f.var n = .ok v ↔ f.var? n = some v := by
  unfold RawFile.var
  cases f.var? n <;> simp

theorem RawFile.dim_ok {f : RawFile α} {n : String} {k : Nat} : f.dim n = .ok k ↔ f.size? n = some k := by
  unfold RawFile.dim
  cases f.size? n <;> simp

theorem RawFile.has_var {f : RawFile α} {n : String} (h : f.has n = true) : ∃ v, f.var? n = some v := Option.isSome_iff_exists.1 h

theorem RawFile.hasAll_var {f : RawFile α} {l : List String} (h : f.hasAll l = true) {n : String} (hn : n ∈ l) : ∃ v, f.var? n = some v :=
  f.has_var (List.all_eq_true.1 h n hn)

theorem RawFile.var?_mem {f : RawFile α} {n : String} {v : RawVar α} (h : f.var? n = some v) : (n, v) ∈ f.vars := by
  unfold RawFile.var? at h
  cases hf : f.vars.find? (fun v => v.1 == n) with
  | none => rw [hf] at h; cases h
  | some p =>
    rw [hf] at h
    simp only [Option.map_some, Option.some.injEq] at h
    have h1 := List.find?_some hf
    have h2 := List.mem_of_find?_eq_some hf
    simp only [beq_iff_eq] at h1
    subst h1 h
    exact h2

/-- No complaint about inclusion: the required variables are present, and the W/u variables are all present or all absent. -/
theorem checkIncluded_nil {f : RawFile α} (h : checkIncluded f = []) :
    (∀ n ∈ variableData.map (·.1), f.has n = true) ∧
    ((∃ n ∈ wVariableData.map (·.1), f.has n = true) → f.hasAll (wVariableData.map (·.1)) = true) := by
  unfold checkIncluded at h
  simp only [List.append_eq_nil_iff] at h
  obtain ⟨h1, h2⟩ := h
  constructor
  · intro n hn
    by_contra hc
    rw [if_pos (by
      intro h0
      rw [List.filter_eq_nil_iff] at h0
      exact h0 n hn (by simpa using hc))] at h1
    cases h1
  · rintro ⟨n, hn, hhas⟩
    unfold RawFile.hasAll
    rw [List.all_eq_true]
    by_contra hc
    simp only [not_forall] at hc
    obtain ⟨m, hm, hno⟩ := hc
    rw [if_pos ⟨by
      intro h0
      rw [List.filter_eq_nil_iff] at h0
      exact h0 m hm (by simpa using hno), by
      intro h0
      have hmem : n ∈ (wVariableData.map (·.1)).filter fun n => !f.has n := by rw [h0]; exact hn
      have := (List.mem_filter.1 hmem).2
      simp [hhas] at this⟩] at h2
    cases h2

theorem checkDimension_nil {f : RawFile α} (h : checkDimension f = []) {n : String} {v : RawVar α} (hv : f.var? n = some v) {ds ts : List String}
    (hs : specOf n = some (ds, ts)) (hne : ds ≠ []) : v.dims = ds := by
  unfold checkDimension at h
  rw [List.flatMap_eq_nil_iff] at h
  have := h _ (RawFile.var?_mem hv)
  simp only [hs] at this
  by_contra hc
  rw [if_pos ⟨hne, hc⟩] at this
  cases this

theorem checkAttributes_nil {f : RawFile α} (h : checkAttributes f = []) :
    ∃ a b, f.attr? "sensor_1_name" = some a ∧ f.attr? "sensor_2_name" = some b ∧ a ≠ b := by
  unfold checkAttributes at h
  simp only [List.append_eq_nil_iff, List.map_eq_nil_iff] at h
  obtain ⟨h1, h2⟩ := h
  have hall : ∀ n ∈ requiredAttrs, ∃ a, f.attr? n = some a := by
    intro n hn
    by_contra hc
    have : n ∈ requiredAttrs.filter fun a => (f.attr? a).isNone := by
      refine List.mem_filter.2 ⟨hn, ?_⟩
      cases ha : f.attr? n with
      | none => rfl
      | some a => exact absurd ⟨a, ha⟩ hc
    rw [h1] at this
    cases this
  obtain ⟨a, ha⟩ := hall "sensor_1_name" (by decide)
  obtain ⟨b, hb⟩ := hall "sensor_2_name" (by decide)
  rw [ha, hb] at h2
  refine ⟨a, b, ha, hb, ?_⟩
  intro he
  simp [he] at h2

theorem maxInt_ok {l : List Int} {m : Int} (h : maxInt l = .ok m) : m ∈ l ∧ ∀ x ∈ l, x ≤ m := by
  cases l with
  | nil => cases h
  | cons x xs =>
    have h : xs.foldl max x = m := by simpa [maxInt] using h
    subst h
    have key : ∀ (xs : List Int) (a : Int), a ≤ xs.foldl max a ∧ (∀ y ∈ xs, y ≤ xs.foldl max a) ∧ (xs.foldl max a = a ∨ xs.foldl max a ∈ xs) := by
      intro xs
      induction xs with
      | nil => intro a; simp
      | cons b xs ih =>
        intro a
        obtain ⟨i1, i2, i3⟩ := ih (max a b)
        simp only [List.foldl_cons]
        refine ⟨by omega, ?_, ?_⟩
        · intro y hy
          rcases List.mem_cons.1 hy with rfl | hy
          · omega
          · exact i2 y hy
        · rcases i3 with h | h
          · rcases Int.le_total a b with hab | hab
            · right; rw [h, Int.max_eq_right hab]; simp
            · left; rw [h, Int.max_eq_left hab]
          · right; simp [h]
    obtain ⟨k1, k2, k3⟩ := key xs x
    refine ⟨by rcases k3 with h | h <;> simp [h], ?_⟩
    intro y hy
    rcases List.mem_cons.1 hy with rfl | hy
    · exact k1
    · exact k2 y hy

theorem sliceInt_nat {β : Type} (l : List β) (a b : Nat) : sliceInt l (a : Int) (b : Int) = slice l a b := by
  unfold sliceInt
  simp only [Int.toNat_natCast]
  rw [if_neg (by omega), if_neg (by omega)]
  simp

theorem getInt_nonneg {β : Type} {l : List β} {i : Int} (h : 0 ≤ i) : getInt l i = pyGet l i.toNat := by
  unfold getInt; rw [if_pos h]

theorem width_fold {wuse uuse wcol ucount : List Int} : ∀ (N : List Nat) (k : Nat) (a : Int) (errs : List Complaint) (r : Int × List Complaint),
    ((N.map (fun n : Nat => (n : Int))).zipIdx k).foldlM (widthStep wuse uuse wcol ucount) (a, errs) = .ok r → r.2 = [] →
    errs = [] ∧ ∀ (i n : Nat), N[i]? = some n → ∃ mx, maxInt (sliceInt wcol (a + ((N.take i).sum : Nat)) (a + ((N.take (i + 1)).sum : Nat))) = .ok mx ∧
      ∀ p ∈ wuse.zip uuse, p.1 = ((k + i : Nat) : Int) + 1 → getInt ucount (p.2 - 1) = .ok (mx + 1)
  | [], k, a, errs, r, h, h0 => by
    simp only [List.map_nil, List.zipIdx_nil, List.foldlM_nil, pure_ok] at h
    subst h
    exact ⟨h0, by simp⟩
  | n :: N, k, a, errs, r, h, h0 => by
    simp only [List.map_cons, List.zipIdx_cons, List.foldlM_cons, bind_ok] at h
    obtain ⟨st, hst, h⟩ := h
    unfold widthStep at hst
    simp only [bind_ok, pure_ok] at hst
    obtain ⟨mx, hmx, es, hes, rfl⟩ := hst
    obtain ⟨h1, h2⟩ := width_fold N (k + 1) _ _ r h h0
    rw [List.append_eq_nil_iff] at h1
    refine ⟨h1.1, ?_⟩
    intro i n' hi
    cases i with
    | zero =>
      simp only [List.getElem?_cons_zero, Option.some.injEq] at hi
      subst hi
      refine ⟨mx, by simpa using hmx, ?_⟩
      intro p hp hpk
      have hm : p.2 - 1 ∈ ((wuse.zip uuse).filter fun p => p.1 = (k : Int) + 1).map fun p => p.2 - 1 :=
        List.mem_map.2 ⟨p, List.mem_filter.2 ⟨hp, by simpa using hpk⟩, rfl⟩
      have : ∃ y, (do let r ← getInt ucount (p.2 - 1); pure (complainIf (decide (r ≠ mx + 1)) (.wuWidth (k + 1))) : Py _) = .ok y ∧ y ∈ es := by
        clear h h1 h2
        revert es
        generalize ((wuse.zip uuse).filter fun p => p.1 = (k : Int) + 1).map (fun p => p.2 - 1) = L at hm
        intro es hes
        obtain ⟨j, hj⟩ := List.mem_iff_getElem?.1 hm
        clear hm
        induction L generalizing j es with
        | nil => simp at hj
        | cons b L ih =>
          rw [List.mapM_cons] at hes
          simp only [bind_ok, pure_ok] at hes
          obtain ⟨y, hy, ys, hys, rfl⟩ := hes
          cases j with
          | zero =>
            simp only [List.getElem?_cons_zero, Option.some.injEq] at hj
            subst hj
            refine ⟨y, ?_, by simp⟩
            simp only [bind_ok, pure_ok]
            exact hy
          | succ j =>
            obtain ⟨y', h1, h2⟩ := ih ys hys j (by simpa using hj)
            exact ⟨y', h1, by simp [h2]⟩
      obtain ⟨y, hy, hye⟩ := this
      simp only [bind_ok, pure_ok] at hy
      obtain ⟨q, hq, rfl⟩ := hy
      have hnil : complainIf (decide (q ≠ mx + 1)) (.wuWidth (k + 1)) = [] := List.flatten_eq_nil_iff.1 h1.2 _ hye
      rw [complainIf_nil, decide_eq_false_iff_not, not_not] at hnil
      rw [hq, hnil]
    | succ i =>
      obtain ⟨mx', e1, e2⟩ := h2 i n' (by simpa using hi)
      refine ⟨mx', ?_, ?_⟩
      · rw [← e1]
        congr 2 <;> simp [Int.add_assoc]
      · intro p hp hpk
        exact e2 p hp (by rw [hpk]; congr 2; omega)

theorem whereNonzero_iff {l r : List Int} (h : whereNonzero l = whereNonzero r) {p : Nat} {x y : Int} (hx : l[p]? = some x) (hy : r[p]? = some y)
    (h0 : x ≠ 0) : y ≠ 0 := by
  have key : ∀ (l : List Int) (p : Nat), p ∈ whereNonzero l ↔ ∃ x, l[p]? = some x ∧ x ≠ 0 := by
    intro l p
    unfold whereNonzero
    simp only [List.mem_map, List.mem_filter, Prod.exists, List.mem_zipIdx_iff_getElem?]
    constructor
    · rintro ⟨a, b, ⟨h1, h2⟩, rfl⟩
      exact ⟨a, h1, by simpa using h2⟩
    · rintro ⟨x, h1, h2⟩
      exact ⟨x, p, ⟨h1, by simpa using h2⟩, rfl⟩
  have := (key l p).2 ⟨x, hx, h0⟩
  rw [h] at this
  obtain ⟨y', hy', h1⟩ := (key r p).1 this
  rw [hy] at hy'; cases hy'
  exact h1

theorem mem_rangeFrom1 {n x : Int} : x ∈ rangeFrom1 n ↔ 1 ≤ x ∧ x < n := by
  unfold rangeFrom1
  simp only [List.mem_map, List.mem_range]
  constructor
  · rintro ⟨i, hi, rfl⟩; omega
  · rintro ⟨h1, h2⟩; exact ⟨(x - 1).toNat, by omega, by omega⟩

theorem sameSet_mem {l r : List Int} (h : sameSet l r = true) {x : Int} (hx : x ∈ l) : x ∈ r := by
  unfold sameSet at h
  rw [Bool.and_eq_true, List.all_eq_true] at h
  simpa using h.1 x hx

variable [Field α] [LinearOrder α]

theorem assign_fold {side M : Nat} {ty w : Nat → Int} {Ur Us : Nat → Nat → α} : ∀ (l : List Nat) (st r : Bool × List Complaint),
    l.foldlM (assignStep side M ty w Ur Us) st = .ok r → r.2 = [] → st.2 = [] ∧ ∀ c ∈ l, 1 ≤ M ∧
      ((ty c = 1 ∧ ∀ i, i < M → 0 < Ur i c ∧ Us i c = 0) ∨ (ty c = 2 ∧ ∀ i, i < M → 0 < Ur i c ∧ 0 < Us i c) ∨
       (ty c = 3 ∧ 0 < w c ∧ ∀ i, i < M → Us i c = 0) ∨ (ty c = 4 ∧ 0 < w c ∧ ∀ i, i < M → 0 < Us i c))
  | [], st, r, h, h0 => by
    simp only [List.foldlM_nil, pure_ok] at h
    subst h
    exact ⟨h0, by simp⟩
  | c :: l, st, r, h, h0 => by
    rw [List.foldlM_cons, bind_ok] at h
    obtain ⟨st1, h1, h⟩ := h
    obtain ⟨e1, e2⟩ := assign_fold l st1 r h h0
    unfold assignStep at h1
    simp only at h1
    split at h1
    · cases h1
    · simp only [Except.ok.injEq] at h1
      subst h1
      simp only [List.append_eq_nil_iff, complainIf_nil, Bool.not_eq_false'] at e1
      obtain ⟨⟨e0, em⟩, eo⟩ := e1
      refine ⟨e0, ?_⟩
      intro c' hc'
      rcases List.mem_cons.1 hc' with rfl | hc'
      · have hall : ∀ (P : α → Bool) (V : Nat → Nat → α), (column M V c').all P = true ↔ ∀ i, i < M → P (V i c') = true := by
          intro P V
          simp [column, List.all_eq_true]
        have hM : 1 ≤ M := by
          by_contra hM
          have : M = 0 := by omega
          subst this
          simp [column] at eo
        refine ⟨hM, ?_⟩
        simp only [Bool.or_eq_true, Bool.and_eq_true, decide_eq_true_eq, hall] at em
        rcases em with ((⟨h, h1, h2⟩ | ⟨h, h1, h2⟩) | ⟨h, h1, h2⟩) | ⟨h, h1, h2⟩
        · exact .inl ⟨h, fun i hi => ⟨h1 i hi, h2 i hi⟩⟩
        · exact .inr (.inl ⟨h, fun i hi => ⟨h1 i hi, h2 i hi⟩⟩)
        · exact .inr (.inr (.inl ⟨h, h1, h2⟩))
        · exact .inr (.inr (.inr ⟨h, h1, h2⟩))
      · exact e2 c' hc'

end Verif
