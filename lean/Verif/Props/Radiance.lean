import Verif.Model.Radiance
import Mathlib.Tactic.Linarith
import Mathlib.Tactic.Positivity
import Mathlib.Tactic.FieldSimp
import Mathlib.Tactic.NormNum
/-
Property C71: brightness temperatures and radiances.
-/
set_option autoImplicit false
namespace Verif

/-- The channels of the table which exist have positive wave numbers and band corrections. -/
theorem bandTable_positive : ∀ e ∈ bandTable, e.2.1.length = 3 ∧ e.2.2.1.length = 3 ∧ e.2.2.2.length = 3 ∧
    ∀ i, i < 3 → 0 ≤ e.2.1.getD i 0 → 0 < e.2.1.getD i 0 ∧ 0 < e.2.2.1.getD i 0 ∧ 0 < e.2.2.2.getD i 0 := by
  decide +kernel

/-- `nu`, `a`, `b` describe channel number 1, 2 or 3 of an instrument the tool knows. -/
def IsBand (instr : String) (channel : Nat) (nu a b : ℚ) : Prop :=
  ∃ c : BandCoefs, returnBandCoefs instr = .ok c ∧ 1 ≤ channel ∧ channel ≤ 3 ∧ c.nuc[channel - 1]? = some nu ∧ c.aval[channel - 1]? = some a ∧
    c.bval[channel - 1]? = some b ∧ 0 ≤ nu

theorem IsBand.pos {instr : String} {ch : Nat} {nu a b : ℚ} (h : IsBand instr ch nu a b) : 0 < nu ∧ 0 < a ∧ 0 < b := by
  obtain ⟨c, hc, h1, h3, hn, ha, hb, h0⟩ := h
  unfold returnBandCoefs at hc
  cases hf : bandTable.find? (fun e => e.1 == instr) with
  | none => rw [hf] at hc; cases hc
  | some e =>
    rw [hf] at hc
    cases hc
    obtain ⟨_, _, _, hp⟩ := bandTable_positive e (List.mem_of_find?_eq_some hf)
    have := hp (ch - 1) (by omega)
    simp only [List.getD_eq_getElem?_getD, hn, ha, hb, Option.getD_some] at this
    exact this h0

theorem IsBand.band {instr : String} {ch : Nat} {nu a b : ℚ} (h : IsBand instr ch nu a b) {c : BandCoefs} (hc : returnBandCoefs instr = .ok c) :
    bandOf c ch = .ok (nu, a, b) := by
  obtain ⟨c', hc', h1, h3, hn, ha, hb, h0⟩ := h
  rw [hc] at hc'
  cases hc'
  have hi : (0 : Int) ≤ (ch : Int) - 1 := by omega
  have ht : ((ch : Int) - 1).toNat = ch - 1 := by omega
  unfold bandOf pyAt
  simp only [hi, if_true, ht, pyGet, hn, ha, hb, bind, Except.bind, pure, Except.pure]
  rw [if_neg (not_lt.2 h0)]

/-- Temperature to radiance: positive, and strictly increasing, for temperatures above zero. -/
theorem planck_facts {nu a b : ℝ} (hnu : 0 < nu) (ha : 0 < a) (hb : 0 < b) :
    (∀ T, 0 < T → 0 < planckRadiance nu a b T) ∧ ∀ S T, 0 < S → S < T → planckRadiance nu a b S < planckRadiance nu a b T := by
  have h1 : (0 : ℝ) < radC1 := by unfold radC1; norm_num
  have h2 : (0 : ℝ) < radC2 := by unfold radC2; norm_num
  have hx : ∀ T, 0 < T → 0 < Real.exp (radC2 * nu / (a + b * T)) - 1 := by
    intro T hT
    have : 0 < radC2 * nu / (a + b * T) := by positivity
    linarith [Real.one_lt_exp_iff.2 this]
  refine ⟨fun T hT => ?_, fun S T hS hST => ?_⟩
  · unfold planckRadiance
    have := hx T hT
    positivity
  · unfold planckRadiance
    have hT := hS.trans hST
    refine div_lt_div_of_pos_left (by positivity) (hx T hT) ?_
    have : radC2 * nu / (a + b * T) < radC2 * nu / (a + b * S) := by
      refine div_lt_div_of_pos_left (by positivity) (by positivity) ?_
      have := mul_lt_mul_of_pos_left hST hb
      linarith
    linarith [Real.exp_lt_exp.2 this]

/-- **C71.** For every instrument of the table, every channel it has and every temperature above zero the radiance is returned, is positive, and increases strictly with
temperature. -/
theorem C71_radiance {instr : String} {ch : Nat} {nu a b : ℚ} (h : IsBand instr ch nu a b) {c : BandCoefs} (hc : returnBandCoefs instr = .ok c) :
    (∀ T : ℝ, 0 < T → ∃ R, temp2radScalar c T ch = .ok R ∧ 0 < R) ∧
    ∀ S T R Q : ℝ, 0 < S → S < T → temp2radScalar c S ch = .ok R → temp2radScalar c T ch = .ok Q → R < Q := by
  obtain ⟨p1, p2, p3⟩ := h.pos
  have q1 : (0 : ℝ) < nu := by exact_mod_cast p1
  have q2 : (0 : ℝ) < a := by exact_mod_cast p2
  have q3 : (0 : ℝ) < b := by exact_mod_cast p3
  have key : ∀ T : ℝ, 0 < T → temp2radScalar c T ch = .ok (planckRadiance nu a b T) := by
    intro T hT
    unfold temp2radScalar
    rw [h.band hc]
    have : (a : ℝ) + b * T ≠ 0 := by positivity
    simp only [bind, Except.bind, this, if_false]
    rfl
  obtain ⟨f1, f2⟩ := planck_facts q1 q2 q3
  refine ⟨fun T hT => ⟨_, key T hT, f1 T hT⟩, fun S T R Q hS hST hR hQ => ?_⟩
  rw [key S hS] at hR
  rw [key T (hS.trans hST)] at hQ
  cases hR
  cases hQ
  exact f2 S T hS hST

/-- **C71, arrays.** In arrays of one to three dimensions every element above zero gets the radiance of that temperature, every other element (also one that is not finite)
is missing, and no element moves. -/
theorem C71_arrays {instr : String} {ch : Nat} {nu a b : ℚ} (h : IsBand instr ch nu a b) {c : BandCoefs} (hc : returnBandCoefs instr = .ok c) (dims : Nat)
    (hd : 1 ≤ dims) (hd' : dims ≤ 3) (T : List (Option ℝ)) : ∃ R, temp2radArray c dims T ch = .ok R ∧ R.length = T.length ∧
      ∀ i (h1 : i < T.length) (h2 : i < R.length), (∀ x : ℝ, T[i] = some x → 0 < x → ∃ r, R[i] = some r ∧ temp2radScalar c x ch = .ok r) ∧
        (∀ x : ℝ, T[i] = some x → x ≤ 0 → R[i] = none) ∧ (T[i] = none → R[i] = none) := by
  obtain ⟨p1, p2, p3⟩ := h.pos
  have q2 : (0 : ℝ) < a := by exact_mod_cast p2
  have q3 : (0 : ℝ) < b := by exact_mod_cast p3
  unfold temp2radArray temp2radScalar
  rw [h.band hc]
  refine ⟨_, rfl, by simp, fun i h1 h2 => ⟨fun x hx h0 => ?_, fun x hx h0 => ?_, fun hx => ?_⟩⟩
  · refine ⟨planckRadiance nu a b x, by simp only [List.getElem_map, hx]; rw [if_pos h0], ?_⟩
    have : (a : ℝ) + b * x ≠ 0 := by positivity
    simp only [bind, Except.bind, this, if_false]
    rfl
  · simp only [List.getElem_map, hx]
    rw [if_neg (not_lt.2 h0), if_pos ⟨hd, hd'⟩]
  · simp only [List.getElem_map, hx]
    rw [if_pos ⟨hd, hd'⟩]

/-- **C71, missing channels and instruments.** An instrument not in the table is refused, and so is the 12 micron channel of the four instruments without it. -/
theorem C71_refused : (∀ instr, (∀ e ∈ bandTable, e.1 ≠ instr) → returnBandCoefs instr = .error .runtimeError) ∧
    ∀ instr ∈ ["n10", "n08", "n06", "tn"], ∃ c, returnBandCoefs instr = .ok c ∧ (∀ T : ℝ, temp2radScalar c T 3 = .error .runtimeError) ∧
      ∀ dims T, temp2radArray c dims T 3 = .error .runtimeError := by
  constructor
  · intro instr h
    unfold returnBandCoefs
    rw [List.find?_eq_none.2 (by simpa using h)]
  · have hb : ∀ instr ∈ ["n10", "n08", "n06", "tn"], ∃ c ∈ bandTable.map (fun e => (⟨e.2.1, e.2.2.1, e.2.2.2⟩ : BandCoefs)),
        returnBandCoefs instr = .ok c ∧ bandOf c 3 = .error .runtimeError := by decide +kernel
    intro instr hi
    obtain ⟨c, _, h1, h2⟩ := hb instr hi
    refine ⟨c, h1, fun T => ?_, fun dims T => ?_⟩
    · unfold temp2radScalar; rw [h2]; rfl
    · unfold temp2radArray; rw [h2]; rfl

/-- Numbers of channels are Python indices. -/
theorem pyAt_three {β : Type} {l : List β} (hl : l.length = 3) : (∀ i : Int, (3 ≤ i ∨ i < -3) → pyAt l i = .error .indexError) ∧
    ∀ i : Int, -3 ≤ i → i < 0 → pyAt l i = pyAt l (i + 3) := by
  constructor
  · intro i h
    unfold pyAt
    rcases h with h | h
    · rw [if_pos (by omega)]
      unfold pyGet
      rw [List.getElem?_eq_none (by omega)]
    · rw [if_neg (by omega), if_neg (by omega)]
  · intro i h h'
    unfold pyAt
    rw [if_neg (by omega), if_pos (by omega), if_pos (by omega)]
    congr 1
    omega

/-- **C71, channel numbers.** For every instrument: channel numbers above 3 and below -2 are an `IndexError`; 0, -1 and -2 are not refused but stand for the channels 3, 2 and 1. -/
theorem C71_channel_numbers {instr : String} {c : BandCoefs} (hc : returnBandCoefs instr = .ok c) :
    (∀ ch : Int, (3 < ch ∨ ch < -2) → (∀ T : ℝ, temp2radScalar c T ch = .error .indexError) ∧ (∀ dims T, temp2radArray c dims T ch = .error .indexError)) ∧
    ∀ ch : Int, -2 ≤ ch → ch ≤ 0 → (∀ T : ℝ, temp2radScalar c T ch = temp2radScalar c T (ch + 3)) ∧ (∀ dims T, temp2radArray c dims T ch = temp2radArray c dims T (ch + 3)) := by
  have hl : c.nuc.length = 3 ∧ c.aval.length = 3 ∧ c.bval.length = 3 := by
    unfold returnBandCoefs at hc
    split at hc
    · rename_i e he
      cases hc
      have := bandTable_positive e (List.mem_of_find?_eq_some he)
      exact ⟨this.1, this.2.1, this.2.2.1⟩
    · cases hc
  obtain ⟨l1, l2, l3⟩ := hl
  constructor
  · intro ch h
    have e : bandOf c ch = .error .indexError := by
      unfold bandOf
      rw [(pyAt_three l1).1 (ch - 1) (by omega)]
      rfl
    exact ⟨fun T => by unfold temp2radScalar; rw [e]; rfl, fun dims T => by unfold temp2radArray; rw [e]; rfl⟩
  · intro ch h h'
    have e : bandOf c ch = bandOf c (ch + 3) := by
      unfold bandOf
      rw [(pyAt_three l1).2 (ch - 1) (by omega) (by omega), (pyAt_three l2).2 (ch - 1) (by omega) (by omega), (pyAt_three l3).2 (ch - 1) (by omega) (by omega),
        show ch + 3 - 1 = ch - 1 + 3 by omega]
    exact ⟨fun T => by unfold temp2radScalar; rw [e], fun dims T => by unfold temp2radArray; rw [e]⟩

/-- Channel 0 of NOAA-19 is its 12 micron channel. -/
example : ∃ c, returnBandCoefs "n19" = .ok c ∧ bandOf c 0 = .ok (832010/1000, 391425/1000000, 998849/1000000) :=
  ⟨_, rfl, by decide +kernel⟩

/-- **C71 is false of the code:** no radiance can be converted back; the call ends with `NameError` for every instrument and every channel it has. -/
theorem C71_inverse_unavailable {β : Type} {instr : String} {ch : Nat} {nu a b : ℚ} (h : IsBand instr ch nu a b) {c : BandCoefs}
    (hc : returnBandCoefs instr = .ok c) (rad : β) : rad2temp c rad ch = .error .nameError := by
  unfold rad2temp
  rw [h.band hc]
  rfl

/-- **C71.** The formula which the call does not reach is the inverse: with it every temperature above zero would be recovered. -/
theorem C71_formula_inverse {instr : String} {ch : Nat} {nu a b : ℚ} (h : IsBand instr ch nu a b) (T : ℝ) (hT : 0 < T) :
    inverseRadiance nu a b (planckRadiance nu a b T) = T := by
  obtain ⟨p1, p2, p3⟩ := h.pos
  have q1 : (0 : ℝ) < nu := by exact_mod_cast p1
  have q2 : (0 : ℝ) < a := by exact_mod_cast p2
  have q3 : (0 : ℝ) < b := by exact_mod_cast p3
  have h1 : (0 : ℝ) < radC1 := by unfold radC1; norm_num
  have h2 : (0 : ℝ) < radC2 := by unfold radC2; norm_num
  have ht : 0 < (a : ℝ) + b * T := by positivity
  have hx : 0 < radC2 * nu / (a + b * T) := by positivity
  have he : 0 < Real.exp (radC2 * nu / (a + b * T)) - 1 := by linarith [Real.one_lt_exp_iff.2 hx]
  unfold inverseRadiance planckRadiance
  have e1 : radC1 * (nu : ℝ) ^ 3 / (radC1 * (nu : ℝ) ^ 3 / (Real.exp (radC2 * nu / (a + b * T)) - 1)) + 1 = Real.exp (radC2 * nu / (a + b * T)) := by
    field_simp
    ring
  rw [e1, Real.log_exp]
  field_simp
  ring

/-- The Planck constant, speed of light and Boltzmann constant of the SI (exact since 2019). -/
noncomputable def siH : ℝ := 662607015 / 10 ^ 42
noncomputable def siC : ℝ := 299792458
noncomputable def siK : ℝ := 1380649 / 10 ^ 29

/-- **C71**, constants. The radiation constants are, to two parts in 100000, `2 h c²` (in mW m⁻² sr⁻¹ cm⁴) and `h c / k` (in cm K), so that the radiance of the formula is that
of Planck's law for a wave number in cm⁻¹. -/
theorem C71_constants : |radC1 - 2 * siH * siC ^ 2 * 10 ^ 11| ≤ 2 / 10 ^ 5 * radC1 ∧ |radC2 - siH * siC / siK * 100| ≤ 2 / 10 ^ 5 * radC2 := by
  unfold radC1 radC2 siH siC siK
  constructor <;> rw [abs_le] <;> constructor <;> norm_num

/-- **C71, a case:** NOAA-19, 11 micron. -/
theorem C71_case : IsBand "n19" 2 (928179 / 1000) (406106 / 1000000) (998698 / 1000000) :=
  ⟨⟨[267851/100, 928179/1000, 832010/1000], [190192/100000, 406106/1000000, 391425/1000000], [999063/1000000, 998698/1000000, 998849/1000000]⟩,
    by decide +kernel, by decide, by decide, rfl, rfl, rfl, by norm_num⟩

end Verif
