import Verif.Props.Compare
/-
Property C84: concrete cases.
-/
set_option autoImplicit false
namespace Verif
namespace Fixture

/-- A side whose only column is 1, 20, 7. -/
def cmpSide (name : String) : Side ℚ :=
  { (fside name 1 1 : Side ℚ) with X := fun r _ => if r = 0 then 1 else if r = 1 then 20 else 7 }

/-- Files of the pairs A-B and A-C. -/
def cmpFiles : List (Dataset ℚ) :=
  [{ (ffile : Dataset ℚ) with s1 := cmpSide "A", s2 := cmpSide "B" }, { (ffile : Dataset ℚ) with s1 := cmpSide "A", s2 := cmpSide "C" }]

/-- `a0 * x`, without derivatives. -/
def cmpModel : SensorModel ℚ Int := fun X a _ _ _ _ => .ok ((X.getD 0 []).map (a.getD 0 1 * ·), none)

/-- The factors of B and C are 2 and 3. -/
def cmpData : SensorData ℚ (SensorModel ℚ Int) (AdjModel ℚ) :=
  [("A", { parameter := [], constant := [], model := cmpModel }), ("B", { parameter := [2], constant := [], model := cmpModel }), ("C", { parameter := [3], constant := [], model := cmpModel })]

/-- A result with the same factors, saved in the order C, B. -/
def cmpOut : OutFile ℚ where
  attrs := [("cost", .num 1), ("cost_dof", .num 1), ("cost_p_value", .num 0)]
  parameter := [3, 2]
  covariance := [[1, 0], [0, 1]]
  sensors := [padName "C", padName "B"]
  vars := []

/-- The directory with this result. -/
def cmpDir : Dir ℚ := [("harm_output.nc".toList, .out cmpOut)]

end Fixture

open Fixture in
/-- **C84** (failure) The parameters of a result are taken in the order in which they are stored, whatever sensors they are labelled with there: a result that has the very parameters in use for each
sensor, but the sensors in another order, is drawn as different. -/
theorem C84_order_fails : ∃ (q : OpenedOutput ℚ × Option (OpenedResiduals ℚ)) (l : List (Drawn ℚ)) (D : Drawn ℚ) (pt : ℚ × ℚ × Option ℚ), openResult cmpDir ["harm_output.nc".toList] false = .ok q ∧
    (∀ en ∈ cmpData, selectBy q.1.parameter q.1.sensors en.1 = en.2.parameter) ∧
    compareOp fenv (fun _ => 0) true cmpFiles cmpData cmpDir ["harm_output.nc".toList] = .ok l ∧ drawnAt l "compare_calibration.B.pdf" = some D ∧ (∃ line ∈ D.lines, pt ∈ line.2) ∧ pt.2.1 ≠ 0 := by
  obtain ⟨q, h1, h2⟩ := check_ok' (x := openResult cmpDir ["harm_output.nc".toList] false) (fun q => decide (q.1.parameter = [3, 2]) && decide (q.1.sensors = ["C", "B"])) (by decide +kernel)
  obtain ⟨l, h3, h4⟩ := check_ok' (x := compareOp fenv (fun _ => 0) true cmpFiles cmpData cmpDir ["harm_output.nc".toList])
    (fun l => decide ((drawnAt l "compare_calibration.B.pdf").map (fun D => D.lines.map fun x => x.2.head?) = some [some (2, -1, some 0)])) (by decide +kernel)
  simp only [Bool.and_eq_true, decide_eq_true_eq] at h2 h4
  obtain ⟨D, hD, h4⟩ := Option.map_eq_some_iff.1 h4
  obtain ⟨line, hl, h5⟩ : ∃ line ∈ D.lines, line.2.head? = some (2, -1, some 0) := by
    have : some ((2, -1, some 0) : ℚ × ℚ × Option ℚ) ∈ D.lines.map fun x => x.2.head? := by rw [h4]; exact List.mem_singleton.2 rfl
    obtain ⟨line, hl, h5⟩ := List.mem_map.1 this
    exact ⟨line, hl, h5⟩
  refine ⟨q, l, D, (2, -1, some 0), h1, ?_, h3, hD, ⟨line, hl, List.mem_of_mem_head? h5⟩, by norm_num⟩
  rw [h2.1, h2.2]
  intro en hen
  simp only [cmpData, List.mem_cons, List.not_mem_nil, or_false] at hen
  rcases hen with rfl | rfl | rfl <;> decide +kernel

open Fixture in
/-- A concrete case over the real numbers: one file, a reference sensor and a sensor with two parameters, other parameters and a covariance matrix of these: all hypotheses of the theorems hold.
**C84** (failure) Of the plot of B the second point has the error bar of the first point, which is not its own. -/
theorem C84_error_bars_fail : ∃ (ms : Evaluable ℝ Int) (A1 A2 B2 : List ℝ) (J : List (List ℝ)), openMatchUpWith fenv defaultAdjustment [ffile] gnModels = .ok ms ∧ ConsistentFiles [(ffile : Dataset ℝ)] ∧
    (∀ d ∈ [(ffile : Dataset ℝ)], 1 ≤ d.s1.m ∧ 1 ≤ d.s2.m ∧ 1 ≤ d.M) ∧ ms.mu.idx.parameter_sensor = some ["B", "B"] ∧ SquareMatrix fcov 2 ∧ NoNegativeVariance fcov 2 ∧
    ComparedAt (δ := Int) gnModels ["B", "B"] [5, 7] ffile (ffile : Dataset ℝ).s1 A1 A1 none ∧ ComparedAt (δ := Int) gnModels ["B", "B"] [5, 7] ffile (ffile : Dataset ℝ).s2 A2 B2 (some J) ∧
    ∃ (l : List (Drawn ℝ)) (D : Drawn ℝ) (line : String × List (ℝ × ℝ × Option ℝ)) (u : List ℝ) (pt : ℝ × ℝ × Option ℝ) (e : ℝ), compareCalibration Real.sqrt true ms [5, 7] fcov = .ok l ∧
      drawnAt l "compare_calibration.B.pdf" = some D ∧ UncertaintyOf fcov ["B", "B"] { (ffile : Dataset ℝ) with M := 20 } (ffile : Dataset ℝ).s2 (some J) u ∧
      line ∈ D.lines ∧ line.2[1]? = some pt ∧ u[1]? = some e ∧ pt.2.2 ≠ some (2 * e) := by
  have h := ffile_opens (α := ℝ)
  obtain ⟨ms, h0, h⟩ := bind_ok.1 h
  obtain ⟨xa, a1, h⟩ := bind_ok.1 h
  obtain ⟨la, a2, h⟩ := bind_ok.1 h
  obtain ⟨ta, a3, h⟩ := bind_ok.1 h
  obtain ⟨xb, b1, h⟩ := bind_ok.1 h
  obtain ⟨lb, b2, h⟩ := bind_ok.1 h
  obtain ⟨tb, b3, h⟩ := bind_ok.1 h
  rw [pure_ok] at h
  have hl : ms.mu.idx.parameter_sensor = some ["B", "B"] := congrArg Prod.fst h
  have hc : ConsistentFiles [(ffile : Dataset ℝ)] := by
    constructor
    · intro d hd
      simp only [List.mem_cons, List.not_mem_nil, or_false] at hd
      subst hd
      show "A" ≠ "B"; decide
    · intro d hd e he s hs t ht _
      simp only [List.mem_cons, List.not_mem_nil, or_false] at hd he hs ht
      subst hd; subst he
      rcases hs with rfl | rfl <;> rcases ht with rfl | rfl <;> rfl
  have hdims : ∀ d ∈ [(ffile : Dataset ℝ)], 1 ≤ d.s1.m ∧ 1 ≤ d.s2.m ∧ 1 ≤ d.M := by
    intro d hd
    simp only [List.mem_cons, List.not_mem_nil, or_false] at hd
    subst hd
    exact ⟨show 1 ≤ 2 by omega, show 1 ≤ 2 by omega, show 1 ≤ 3 by omega⟩
  have hcol : ∀ d ∈ [(ffile : Dataset ℝ)], 1 ≤ d.s1.m ∧ 1 ≤ d.s2.m := fun d hd => ⟨(hdims d hd).1, (hdims d hd).2.1⟩
  have hM : ∀ d ∈ [(ffile : Dataset ℝ)], 1 ≤ d.M := fun d hd => (hdims d hd).2.2
  have hn : (((gnModels : SensorData ℝ (SensorModel ℝ Int) (AdjModel ℝ))).map (·.1)).Nodup := by
    show ["A", "B"].Nodup; decide
  have hCs : SquareMatrix fcov 2 := by
    refine ⟨rfl, ?_⟩
    intro row hr
    simp only [fcov, List.mem_cons, List.not_mem_nil, or_false] at hr
    rcases hr with rfl | rfl <;> rfl
  have hC : NoNegativeVariance fcov 2 := by
    intro v
    simp only [Finset.sum_range_succ, Finset.sum_range_zero, elem, fcov, List.getD_cons_zero, List.getD_cons_succ]
    nlinarith [sq_nonneg (v 0 + v 1), sq_nonneg (v 0), sq_nonneg (v 1)]
  have hsq : ∀ x : ℝ, 0 ≤ x → 0 ≤ Real.sqrt x ∧ Real.sqrt x * Real.sqrt x = x := fun x hx => ⟨Real.sqrt_nonneg x, Real.mul_self_sqrt hx⟩
  obtain ⟨sim, f, labels', s1, s2, s3, s4, s5, s6, s7, s8, s9, s10, s11⟩ := simulated_side hc hcol hM hn h0 20
  obtain ⟨X1, hX1⟩ := (((s11 0 ffile _ rfl (.inl rfl)).2.2 _ List.mem_cons_self).2).1
  obtain ⟨X2, hX2⟩ := (((s11 0 ffile _ rfl (.inr rfl)).2.2 _ (List.mem_cons_of_mem _ List.mem_cons_self)).2).1
  obtain ⟨x0, x1, rfl⟩ := List.length_eq_two.1 hX1.1
  obtain ⟨z0, z1, rfl⟩ := List.length_eq_two.1 hX2.1
  have lx0 := (hX1.2 0 x0 rfl).1
  have lz0 := (hX2.2 0 z0 rfl).1
  have lz1 := (hX2.2 1 z1 rfl).1
  have c1 : ∃ A1, ComparedAt (δ := Int) gnModels ["B", "B"] [5, 7] ffile (ffile : Dataset ℝ).s1 A1 A1 none :=
    ⟨_, _, [x0, x1], _, List.mem_cons_self, hX1, rfl, rfl, by simpa using lx0, by simpa using lx0, fun J' h' => nomatch h'⟩
  have c2 : ∃ A2 B2, ComparedAt (δ := Int) gnModels ["B", "B"] [5, 7] ffile (ffile : Dataset ℝ).s2 A2 B2 (some [z1.map ((5 : ℝ) * ·), z0.map ((5 : ℝ) * ·), List.zipWith (· * ·) z0 z1, z0.map fun _ => 1]) := by
    refine ⟨_, _, _, [z0, z1], _, List.mem_cons_of_mem _ List.mem_cons_self, hX2, rfl, rfl, ?_, ?_, ?_⟩
    · simp [lz0, lz1]
    · simp [lz0, lz1]
    · intro J' h'
      obtain rfl := Option.some.inj h'
      refine ⟨rfl, ?_⟩
      intro col hcol'
      simp only [List.mem_cons, List.not_mem_nil, or_false] at hcol'
      rcases hcol' with rfl | rfl | rfl | rfl <;> simp [lz0, lz1]
  obtain ⟨A1, c1⟩ := c1
  obtain ⟨A2, B2, c2⟩ := c2
  refine ⟨ms, A1, A2, B2, _, h0, hc, hdims, hl, hCs, hC, c1, c2, ?_⟩
  obtain ⟨k, D1, D2, u1, u2, k1, k2, k3, k4, k5⟩ := C84_points_partial fenv defaultAdjustment [(ffile : Dataset ℝ)] hc hcol hM gnModels hn ms h0 ["B", "B"] hl [5, 7] fcov hCs hC (fun _ => A1) (fun _ => A2)
    (fun _ => A1) (fun _ => B2) (fun _ => none) (fun _ => some [z1.map ((5 : ℝ) * ·), z0.map ((5 : ℝ) * ·), List.zipWith (· * ·) z0 z1, z0.map fun _ => 1])
    (by
      intro i d hd
      match i, hd with
      | 0, hd =>
        obtain rfl := Option.some.inj hd
        exact ⟨c1, c2⟩) Real.sqrt hsq
  obtain ⟨D, i, d', hat, hik, hdi, hcase⟩ := C84_every_sensor k2 k1 (fun i d hi hd => ⟨(k5 i d hi hd).1, (k5 i d hi hd).2.1⟩) (d := ffile) (by simp) (nm := "B") (.inr rfl)
  have hi0 : i = 0 := by simp only [List.length_singleton] at k1; omega
  subst hi0
  obtain rfl := Option.some.inj hdi
  obtain ⟨_, _, _, hU⟩ := k5 0 ffile hik rfl
  rcases hcase with ⟨h', _⟩ | ⟨_, _, hp⟩
  · exact absurd h' (by decide)
  obtain ⟨_, pts, hlines, hlen, hpts⟩ := hp
  obtain ⟨pt, hpt⟩ : ∃ pt, pts[1]? = some pt := ⟨_, List.getElem?_eq_getElem (by omega)⟩
  obtain ⟨a, b, e0, _, _, he0, rfl⟩ := hpts 1 pt hpt
  have hul : (u2 0).length = 20 := hU.1
  obtain ⟨e1, he1⟩ : ∃ e, (u2 0)[1]? = some e := ⟨_, List.getElem?_eq_getElem (by omega)⟩
  refine ⟨_, D, ("__nolegend__", pts), u2 0, _, e1, k4, hat, hU, by rw [hlines]; exact List.mem_singleton.2 rfl, hpt, he1, ?_⟩
  intro hbar
  have hbar : e0 = e1 := by
    have := Option.some.inj hbar
    linarith
  -- the uncertainties at the first two points
  have hval : ∀ (r : Nat) (x : ℝ), (u2 0)[r]? = some x → r < 20 → x * x = 4 * (z0.getD r 0 * z1.getD r 0) * (z0.getD r 0 * z1.getD r 0) + 2 * (z0.getD r 0 * z1.getD r 0) + 9 := by
    intro r x hx hr
    obtain ⟨g, _, hg, _, hgg⟩ := hU.2 r x hx
    have hg' : [g 0, g 1] = [z0.getD r 0 * z1.getD r 0, 1] := by
      have e1 : (List.zipWith (· * ·) z0 z1).getD r 0 = z0.getD r 0 * z1.getD r 0 := by
        rw [List.getD, List.getD, List.getD, List.getElem?_zipWith, List.getElem?_eq_getElem (show r < z0.length by omega), List.getElem?_eq_getElem (show r < z1.length by omega)]; rfl
      have e2 : (z0.map fun _ => (1 : ℝ)).getD r 0 = 1 := by
        rw [List.getD, List.getElem?_map, List.getElem?_eq_getElem (show r < z0.length by omega)]; rfl
      rw [← e1, ← e2]
      exact hg
    simp only [List.cons.injEq, and_true] at hg'
    rw [hgg]
    simp only [List.length_cons, List.length_nil, Nat.zero_add, Nat.reduceAdd, Finset.sum_range_succ, Finset.sum_range_zero, elem, fcov, List.getD_cons_zero, List.getD_cons_succ, hg'.1, hg'.2]
    ring
  -- the columns
  have hcolv : ∀ (c : Nat) (z : List ℝ) (b : ℝ), Spread ((List.range 3).map fun r => ((50 + 10 * c + r * r : Nat) : ℝ)) 20 z → b = 50 + 10 * c →
      z.getD 0 0 = b ∧ z.getD 1 0 = b + 4 / 19 := by
    intro c z b hz hb
    obtain ⟨hzl, lo, hlo, hi, hhi, hbd, _, hh, _, hst⟩ := hz
    have hr : (List.range 3).map (fun r => ((50 + 10 * c + r * r : Nat) : ℝ)) = [b, b + 1, b + 4] := by
      subst hb
      simp only [List.range_succ, List.range_zero, List.nil_append, List.cons_append, List.map_cons, List.map_nil]
      push_cast
      norm_num
    rw [hr] at hlo hhi hbd
    have elo : lo = b := by
      have h1 := (hbd b (by simp)).1
      simp only [List.mem_cons, List.not_mem_nil, or_false] at hlo
      rcases hlo with h | h | h <;> linarith
    have ehi : hi = b + 4 := by
      have h1 := (hbd (b + 4) (by simp)).2
      simp only [List.mem_cons, List.not_mem_nil, or_false] at hhi
      rcases hhi with h | h | h <;> linarith
    obtain ⟨w0, hw0⟩ : ∃ w, z[0]? = some w := ⟨_, List.getElem?_eq_getElem (by omega)⟩
    obtain ⟨w1, hw1⟩ : ∃ w, z[1]? = some w := ⟨_, List.getElem?_eq_getElem (by omega)⟩
    have e0 := hh w0 (by rw [List.head?_eq_getElem?]; exact hw0)
    have e1 := hst 0 w0 w1 hw0 hw1
    rw [List.getD, List.getD, hw0, hw1]
    simp only [Option.getD_some]
    rw [e0, elo] at e1
    rw [ehi] at e1
    rw [e0, elo]
    refine ⟨rfl, ?_⟩
    norm_num at e1
    linarith
  obtain ⟨p0, p1⟩ := hcolv 0 z0 50 (hX2.2 0 z0 rfl) (by norm_num)
  obtain ⟨q0, q1⟩ := hcolv 1 z1 60 (hX2.2 1 z1 rfl) (by norm_num)
  have v0 := hval 0 e0 he0 (by omega)
  have v1 := hval 1 e1 he1 (by omega)
  rw [p0, q0] at v0
  rw [p1, q1, ← hbar, v0] at v1
  norm_num at v1

end Verif
