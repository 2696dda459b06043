import Verif.Lemmas.Minres
import Mathlib.Algebra.Field.Rat
import Mathlib.Algebra.Order.Ring.Rat
import Mathlib.Data.Fin.VecNotation
/-
C38, C61: the MINRES solver.
-/
set_option autoImplicit false
namespace Verif
variable {α : Type} [Field α] [LinearOrder α] [IsStrictOrderedRing α] {n : Nat}
open Matrix

/-! ### The loop -/

omit [IsStrictOrderedRing α] in
/-- More turns than `itnlim - itn` change nothing: the bound in the model of the loop is not a bound of the code. -/
theorem Minres.loop_fuel {opts : MinresOpts α} {sqrt : α → Py α} {A : (Fin n → α) → Py (Fin n → α)} {beta1 : α}
    (hturn : ∀ st st' : MinresState α n, ∀ c, st.turn opts sqrt A beta1 = .ok (st', c) → st'.itn = st.itn + 1) :
    ∀ (k : Nat) (st : MinresState α n), opts.itnlim - st.itn ≤ k →
      Minres.loop opts sqrt A beta1 k st = Minres.loop opts sqrt A beta1 (opts.itnlim - st.itn) st
  | 0, st, hk => by
    rw [show opts.itnlim - st.itn = 0 by omega]
  | k + 1, st, hk => by
    by_cases hlt : st.itn < opts.itnlim
    · obtain ⟨d, hd⟩ : ∃ d, opts.itnlim - st.itn = d + 1 := ⟨opts.itnlim - st.itn - 1, by omega⟩
      rw [hd]
      unfold Minres.loop
      rw [if_pos hlt, if_pos hlt]
      rcases ht : st.turn opts sqrt A beta1 with e | ⟨st', c⟩
      · rfl
      · have hi := hturn st st' c ht
        show (if c = true then pure st' else Minres.loop opts sqrt A beta1 k st') = (if c = true then pure st' else Minres.loop opts sqrt A beta1 d st')
        rw [Minres.loop_fuel hturn k st' (by omega)]
        rw [show opts.itnlim - st'.itn = d by omega]
    · rw [show opts.itnlim - st.itn = 0 by omega]
      unfold Minres.loop
      rw [if_neg hlt]

omit [IsStrictOrderedRing α] in
theorem advance_itn {opts : MinresOpts α} {sqrt : α → Py α} {beta1 beta : α} {st st' : MinresState α n} {lz : LanczosStep α n}
    (h : st.advance opts sqrt beta1 lz beta = .ok st') : st'.itn = st.itn + 1 := by
  unfold MinresState.advance at h
  obtain ⟨root, h1, h⟩ := bind_ok.1 h
  obtain ⟨hyp, h2, h⟩ := bind_ok.1 h
  obtain ⟨i10, h3, h⟩ := bind_ok.1 h
  obtain ⟨Anorm, h4, h⟩ := bind_ok.1 h
  obtain ⟨ynorm, h5, h⟩ := bind_ok.1 h
  obtain ⟨test1, h6, h⟩ := bind_ok.1 h
  obtain ⟨test2, h7, h⟩ := bind_ok.1 h
  rw [pure_ok] at h
  subst h
  rfl

/-- A turn never takes the branch `beta < 0`: it is a Lanczos step followed by `advance`. -/
theorem turn_ok {opts : MinresOpts α} {sqrt : α → Py α} {A : (Fin n → α) → Py (Fin n → α)} {beta1 : α} {st : MinresState α n}
    {r : MinresState α n × Bool} (h : st.turn opts sqrt A beta1 = .ok r) :
    ∃ lz beta, st.lanczos opts A = .ok lz ∧ sqrt (lz.y ⬝ᵥ lz.y) = .ok beta ∧ st.advance opts sqrt beta1 lz beta = .ok r.1 ∧ r.2 = decide (0 < r.1.istop) := by
  unfold MinresState.turn at h
  obtain ⟨lz, h1, h⟩ := bind_ok.1 h
  have hn : ¬ lz.y ⬝ᵥ lz.y < 0 := not_lt.2 (normSq_nonneg lz.y)
  rw [if_neg hn] at h
  obtain ⟨beta, h2, h⟩ := bind_ok.1 h
  obtain ⟨s, h3, h⟩ := bind_ok.1 h
  rw [pure_ok] at h
  subst h
  exact ⟨lz, beta, h1, h2, h3, rfl⟩

theorem turn_itn {opts : MinresOpts α} {sqrt : α → Py α} {A : (Fin n → α) → Py (Fin n → α)} {beta1 : α} (st st' : MinresState α n) (c : Bool)
    (h : st.turn opts sqrt A beta1 = .ok (st', c)) : st'.itn = st.itn + 1 := by
  obtain ⟨lz, beta, _, _, h3, _⟩ := turn_ok h
  exact advance_itn h3

/-- Induction over the turns of the loop. -/
theorem loop_induct {opts : MinresOpts α} {sqrt : α → Py α} {A : (Fin n → α) → Py (Fin n → α)} {beta1 : α} (P : MinresState α n → Prop)
    (step : ∀ (st : MinresState α n) r, P st → (st.itn = 0 ∨ ¬ 0 < st.istop) → st.itn < opts.itnlim → st.turn opts sqrt A beta1 = .ok r → P r.1) :
    ∀ (k : Nat) {st st' : MinresState α n}, P st → (st.itn = 0 ∨ ¬ 0 < st.istop) → opts.itnlim - st.itn ≤ k →
      Minres.loop opts sqrt A beta1 k st = .ok st' →
      P st' ∧ st.itn ≤ st'.itn ∧ (st'.itn ≤ opts.itnlim ∨ st'.itn = st.itn) ∧ (opts.itnlim ≤ st'.itn ∨ 0 < st'.istop)
  | 0, st, st', hP, hst, hk, h => by
    cases h
    exact ⟨hP, le_rfl, .inr rfl, .inl (by omega)⟩
  | k + 1, st, st', hP, hst, hk, h => by
    unfold Minres.loop at h
    by_cases hlt : st.itn < opts.itnlim
    · rw [if_pos hlt] at h
      obtain ⟨r, h1, h⟩ := bind_ok.1 h
      have hi := turn_itn st r.1 r.2 h1
      have hP' := step st r hP hst hlt h1
      obtain ⟨lz, beta, _, _, _, h2⟩ := turn_ok h1
      by_cases hc : r.2 = true
      · rw [if_pos hc, pure_ok] at h
        subst h
        rw [hc] at h2
        exact ⟨hP', by omega, .inl (by omega), .inr (of_decide_eq_true h2.symm)⟩
      · rw [if_neg hc] at h
        obtain ⟨a1, a2, a3, a4⟩ := loop_induct P step k hP' (.inr (by
          intro hp; rw [h2] at hc; exact hc (decide_eq_true hp))) (by omega) h
        exact ⟨a1, by omega, by omega, a4⟩
    · rw [if_neg hlt, pure_ok] at h
      subst h
      exact ⟨hP, le_rfl, .inr rfl, .inl (by omega)⟩

/-! ### C38: bound and outcome codes -/

omit [IsStrictOrderedRing α] in
theorem minresVerdict_spec (opts : MinresOpts α) (itn : Nat) (test1 test2 : α) (Acond : Option α) (epsx beta1 : α) (v : Int)
    (hv : v = minresVerdict opts 0 itn test1 test2 Acond epsx beta1) :
    (v = 0 ∧ itn < opts.itnlim) ∨ (v = 1 ∧ (test1 ≤ opts.rtol ∨ 1 + test1 ≤ 1)) ∨ (v = 2 ∧ (test2 ≤ opts.rtol ∨ 1 + test2 ≤ 1)) ∨ (v = 3 ∧ beta1 ≤ epsx) ∨
      (v = 4 ∧ ∀ c, Acond = some c → 1 / 10 / opts.eps ≤ c) ∨ (v = 6 ∧ opts.itnlim ≤ itn) := by
  unfold minresVerdict at hv
  simp only [ne_eq, not_true_eq_false, if_false] at hv
  by_cases h1 : test1 ≤ opts.rtol
  · rw [if_pos h1] at hv; simp [hv, h1]
  rw [if_neg h1] at hv
  by_cases h2 : test2 ≤ opts.rtol
  · rw [if_pos h2] at hv; simp [hv, h2]
  rw [if_neg h2] at hv
  by_cases h3 : beta1 ≤ epsx
  · rw [if_pos h3] at hv; simp [hv, h3]
  rw [if_neg h3] at hv
  have key : ∀ w : Int, w = (if opts.itnlim ≤ itn then 6 else if 1 + test1 ≤ 1 then 1 else if 1 + test2 ≤ 1 then 2 else 0) →
      (w = 0 ∧ itn < opts.itnlim) ∨ (w = 1 ∧ (test1 ≤ opts.rtol ∨ 1 + test1 ≤ 1)) ∨ (w = 2 ∧ (test2 ≤ opts.rtol ∨ 1 + test2 ≤ 1)) ∨
      (w = 6 ∧ opts.itnlim ≤ itn) := by
    intro w hw
    by_cases h6 : opts.itnlim ≤ itn
    · rw [if_pos h6] at hw; simp [hw, h6]
    rw [if_neg h6] at hw
    by_cases h7 : 1 + test1 ≤ 1
    · rw [if_pos h7] at hw; exact .inr (.inl ⟨hw, .inr h7⟩)
    rw [if_neg h7] at hw
    by_cases h8 : 1 + test2 ≤ 1
    · rw [if_pos h8] at hw; exact .inr (.inr (.inl ⟨hw, .inr h8⟩))
    rw [if_neg h8] at hw
    exact .inl ⟨hw, by omega⟩
  rcases Acond with _ | c
  · simp only at hv; simp [hv]
  · simp only at hv
    by_cases h4 : 1 / 10 / opts.eps ≤ c
    · rw [if_pos h4] at hv
      exact .inr (.inr (.inr (.inr (.inl ⟨hv, fun c' hc => by cases hc; exact h4⟩))))
    · rw [if_neg h4] at hv
      rcases key v hv with h | h | h | h
      · exact .inl h
      · exact .inr (.inl h)
      · exact .inr (.inr (.inl h))
      · exact .inr (.inr (.inr (.inr (.inr h))))

/-- What is kept from turn to turn, whatever the operator. -/
structure MinresTrack (opts : MinresOpts α) (normb : α) (st : MinresState α n) : Prop where
  code : st.CodeTrue opts normb
  codes : st.istop ∈ [-1, 0, 1, 2, 3, 4, 6, 10]
  zero : st.istop = 0 → st.itn < opts.itnlim ∨ st.itn = 0
  phi : 0 ≤ st.phibar
  hist : st.residHistory.length = st.itn
  last : (normb :: st.residHistory)[st.itn]? = some st.phibar

theorem advance_track {opts : MinresOpts α} (heps : 0 < opts.eps) (hr : 0 ≤ opts.rtol) {sqrt : α → Py α} (hs : IsSqrt sqrt) {beta1 beta : α}
    {st st' : MinresState α n} {lz : LanczosStep α n} (h : st.advance opts sqrt beta1 lz beta = .ok st') (hb : 0 ≤ beta)
    (ht : MinresTrack opts beta1 st) (hst : ¬ 0 < st.istop) (hlt : st.itn < opts.itnlim) : MinresTrack opts beta1 st' := by
  unfold MinresState.advance at h
  obtain ⟨root, h1, h⟩ := bind_ok.1 h
  obtain ⟨hyp, h2, h⟩ := bind_ok.1 h
  obtain ⟨i10, h3, h⟩ := bind_ok.1 h
  obtain ⟨Anorm, h4, h⟩ := bind_ok.1 h
  obtain ⟨ynorm, h5, h⟩ := bind_ok.1 h
  obtain ⟨test1, h6, h⟩ := bind_ok.1 h
  obtain ⟨test2, h7, h⟩ := bind_ok.1 h
  rw [pure_ok] at h
  obtain ⟨r0, _⟩ := hs _ _ h1
  obtain ⟨A0, _⟩ := hs _ _ h4
  obtain ⟨y0, _⟩ := hs _ _ h5
  obtain ⟨d1, e1⟩ := npDiv_ok h6
  obtain ⟨d2, e2⟩ := npDiv_ok h7
  have gpos : 0 < max hyp opts.eps := lt_of_lt_of_le heps (le_max_right _ _)
  have A1 : 0 < Anorm := lt_of_le_of_ne A0 (Ne.symm d2)
  have AY : 0 < Anorm * ynorm := lt_of_le_of_ne (mul_nonneg A0 y0) (Ne.symm d1)
  have ist : st.istop = 0 ∨ st.istop = -1 := by
    have := ht.codes
    simp only [List.mem_cons, List.not_mem_nil, or_false] at this
    omega
  obtain ⟨i0, hi0⟩ : ∃ i0, i0 = (if st.itn + 1 = 1 then (if beta / beta1 ≤ 10 * opts.eps then -1 else st.istop) else st.istop) := ⟨_, rfl⟩
  have hi0' : i0 = 0 ∨ i0 = -1 := by
    rw [hi0]
    split_ifs
    · exact .inr rfl
    · exact ist
    · exact ist
  rw [← hi0] at h3
  have h10 : i10 = i0 ∨ (i10 = 10 ∧ opts.window < st.itn + 1 ∧ ∃ t e, 0 ≤ t ∧
      t * t = sumSq (st.dErr.set ((st.itn + 1) % opts.window) ((st.sn * st.dbar - st.cs * lz.alfa) / max hyp opts.eps * st.phibar)) ∧ 0 ≤ e ∧
      e * e = st.xNrgNorm2 + (st.sn * st.dbar - st.cs * lz.alfa) / max hyp opts.eps * st.phibar *
        ((st.sn * st.dbar - st.cs * lz.alfa) / max hyp opts.eps * st.phibar) ∧ t < opts.etol * e) := by
    unfold MinresState.directError at h3
    by_cases hw : opts.window < st.itn + 1
    · rw [if_pos hw] at h3
      obtain ⟨t, g1, h3⟩ := bind_ok.1 h3
      obtain ⟨e, g2, h3⟩ := bind_ok.1 h3
      rw [pure_ok] at h3
      by_cases hte : t < opts.etol * e
      · rw [if_pos hte] at h3
        exact .inr ⟨h3.symm, hw, t, e, (hs _ _ g1).1, (hs _ _ g1).2, (hs _ _ g2).1, (hs _ _ g2).2, hte⟩
      · rw [if_neg hte] at h3
        exact .inl h3.symm
    · rw [if_neg hw, pure_ok] at h3
      exact .inl h3.symm
  obtain ⟨v, hv⟩ : ∃ v, v = st'.istop := ⟨_, rfl⟩
  have hphi : 0 ≤ beta / max hyp opts.eps * st.phibar := mul_nonneg (div_nonneg hb gpos.le) ht.phi
  have hhist : (st.residHistory ++ [beta / max hyp opts.eps * st.phibar]).length = st.itn + 1 := by simp [ht.hist]
  have hlast : (beta1 :: (st.residHistory ++ [beta / max hyp opts.eps * st.phibar]))[st.itn + 1]? = some (beta / max hyp opts.eps * st.phibar) := by
    rw [List.getElem?_cons_succ, List.getElem?_append_right (by rw [ht.hist]), ht.hist]; simp
  have hprev : (beta1 :: (st.residHistory ++ [beta / max hyp opts.eps * st.phibar]))[st.itn + 1 - 1]? = some st.phibar := by
    rw [Nat.add_sub_cancel, ← List.cons_append, List.getElem?_append_left (by simp [ht.hist]), ht.last]
  by_cases hz : i10 = 0
  · -- the tests decide
    have hvd := minresVerdict_spec opts (st.itn + 1) test1 test2 st'.Acond (Anorm * ynorm * opts.eps) beta1 v (by
      rw [hv, ← h, hz])
    subst h
    have t1' : ∀ t : α, (t ≤ opts.rtol ∨ 1 + t ≤ 1) → t ≤ opts.rtol := by
      rintro t (h | h)
      · exact h
      · linarith
    simp only at hv hvd
    refine ⟨⟨?_, ?_, ?_, ?_, ?_, ?_⟩, ?_, ?_, hphi, hhist, hlast⟩
    · intro hc
      have hv1 : v = 1 := hv.trans hc
      have : test1 ≤ opts.rtol := by
        rcases hvd with g | g | g | g | g | g <;> try omega
        exact t1' _ g.2
      rw [e1, div_le_iff₀ AY] at this
      exact this
    · intro hc
      have hv1 : v = 2 := hv.trans hc
      have : test2 ≤ opts.rtol := by
        rcases hvd with g | g | g | g | g | g <;> try omega
        exact t1' _ g.2
      rw [e2, div_le_iff₀ A1] at this
      refine ⟨st.phibar, hprev, ?_⟩
      show st.phibar * root ≤ _
      rw [mul_comm st.phibar root]
      exact mul_le_mul_of_nonneg_right this ht.phi
    · intro hc
      have hv1 : v = 3 := hv.trans hc
      rcases hvd with g | g | g | g | g | g <;> try omega
      rw [mul_comm]; exact g.2
    · intro hc
      have hv1 : v = 4 := hv.trans hc
      rcases hvd with g | g | g | g | g | g <;> try omega
      exact g.2
    · intro hc
      have hv1 : v = 6 := hv.trans hc
      rcases hvd with g | g | g | g | g | g <;> try omega
      show st.itn + 1 = opts.itnlim
      omega
    · intro hc
      have hv1 : v = 10 := hv.trans hc
      rcases hvd with g | g | g | g | g | g <;> omega
    · show minresVerdict _ i10 _ _ _ _ _ _ ∈ _
      rw [← hv]
      rcases hvd with g | g | g | g | g | g <;> rw [g.1] <;> decide
    · intro hc
      have hv1 : v = 0 := hv.trans hc
      rcases hvd with g | g | g | g | g | g <;> try omega
      exact .inl g.2
  · have hist : st'.istop = i10 := by
      rw [← h]
      show minresVerdict _ i10 _ _ _ _ _ _ = _
      unfold minresVerdict
      rw [if_pos hz]
    have hcases : i10 = -1 ∨ i10 = 10 := by
      rcases h10 with g | g
      · rcases hi0' with g' | g'
        · omega
        · exact .inl (by omega)
      · exact .inr g.1
    refine ⟨⟨?_, ?_, ?_, ?_, ?_, ?_⟩, ?_, ?_, ?_, ?_, ?_⟩
    · intro hc; omega
    · intro hc; omega
    · intro hc; omega
    · intro hc; omega
    · intro hc; omega
    · intro hc
      rcases h10 with g | g
      · omega
      · subst h; exact g.2
    · rw [hist]; rcases hcases with g | g <;> rw [g] <;> decide
    · intro hc; omega
    · subst h; exact hphi
    · subst h; exact hhist
    · subst h; exact hlast

/-- **C38 (MINRES).** Whatever the operator, the right-hand side and the tolerances, a solve which returns has made at most the allowed number of iterations;
its outcome code is one of the codes of the list of messages, and is true of the numbers reported; the symmetry code is given exactly when the test failed;
the code 0 only without iterations, for a zero right-hand side or a zero limit; the code -1 only when the iteration limit has been used up. -/
theorem C38_minres {opts : MinresOpts α} (heps : 0 < opts.eps) (hr : 0 ≤ opts.rtol) {sqrt : α → Py α} (hs : IsSqrt sqrt)
    {A : (Fin n → α) → Py (Fin n → α)} {probes : List (Fin n → α)} {b : Fin n → α} {st : MinresState α n} (h : Minres.solve opts sqrt A probes b = .ok st) :
    st.itn ≤ opts.itnlim ∧ st.istop ∈ [-1, 0, 1, 2, 3, 4, 6, 7, 10] ∧
      (∃ normb, 0 ≤ normb ∧ normb * normb = normSq b ∧ st.CodeTrue opts normb ∧ st.residHistory.length = st.itn ∧
        (1 ≤ st.itn → (normb :: st.residHistory)[st.itn]? = some st.phibar)) ∧
      (st.istop = 7 ↔ Minres.symmetric opts A probes = .ok false) ∧ (st.istop = 7 → st.itn = 0) ∧
      (st.istop = 0 → st.itn = 0 ∧ (b = 0 ∨ opts.itnlim = 0)) ∧ (st.istop = -1 → st.itn = opts.itnlim) := by
  unfold Minres.solve at h
  obtain ⟨beta1, h1, h⟩ := bind_ok.1 h
  obtain ⟨sym, h2, h⟩ := bind_ok.1 h
  have hb1 : 0 ≤ beta1 ∧ beta1 * beta1 = normSq b := by
    unfold Minres.beta1 at h1
    by_cases hp : 0 < b ⬝ᵥ b
    · rw [if_pos hp] at h1
      exact hs _ _ h1
    · rw [if_neg hp, pure_ok] at h1
      have : b ⬝ᵥ b = 0 := le_antisymm (not_lt.1 hp) (normSq_nonneg b)
      rw [← h1, normSq_eq, this]; simp
  have hnn : ¬ b ⬝ᵥ b < 0 := not_lt.2 (normSq_nonneg b)
  simp only [if_neg hnn] at h
  by_cases hc : (sym && decide (0 < b ⬝ᵥ b)) = true
  · rw [if_pos hc] at h
    rw [Bool.and_eq_true, decide_eq_true_eq] at hc
    obtain ⟨hs1, hb⟩ := hc
    subst hs1
    have ht0 : MinresTrack opts beta1 (Minres.start opts b 0 beta1) :=
      ⟨⟨fun h => (by cases h), fun h => (by cases h), fun h => (by cases h), fun h => (by cases h), fun h => (by cases h), fun h => (by cases h)⟩, by show (0 : Int) ∈ _; decide,
        fun _ => .inr rfl, hb1.1, rfl, rfl⟩
    have key := loop_induct (opts := opts) (sqrt := sqrt) (A := A) (beta1 := beta1)
      (fun st => MinresTrack opts beta1 st ∧ (st.itn = 0 → st.istop = 0)) (by
        rintro st r ⟨hP, hP0⟩ hst hlt ht
        obtain ⟨lz, beta, _, g2, g3, _⟩ := turn_ok ht
        have hi := advance_itn g3
        refine ⟨advance_track heps hr hs g3 (hs _ _ g2).1 hP ?_ hlt, by omega⟩
        rcases hst with hst | hst
        · rw [hP0 hst]; decide
        · exact hst) opts.itnlim ⟨ht0, fun _ => rfl⟩ (.inl rfl) (by show opts.itnlim - 0 ≤ _; omega) h
    obtain ⟨⟨kt, kt0⟩, k1, k2, k3⟩ := key
    have hcodes := kt.codes
    have hle : st.itn ≤ opts.itnlim := by
      rcases k2 with k2 | k2
      · exact k2
      · rw [k2]; exact Nat.zero_le _
    have h7 : st.istop ≠ 7 := by
      intro h7; rw [h7] at hcodes; revert hcodes; decide
    refine ⟨hle, ?_, ⟨beta1, hb1.1, hb1.2, kt.code, kt.hist, fun _ => kt.last⟩, ?_, fun h => absurd h h7, ?_, ?_⟩
    · simp only [List.mem_cons, List.not_mem_nil, or_false] at hcodes ⊢; omega
    · rw [h2]
      exact ⟨fun h => absurd h h7, fun h => (by cases h)⟩
    · intro h0
      rcases k3 with k3 | k3
      · rcases kt.zero h0 with z | z
        · omega
        · exact ⟨z, .inr (by omega)⟩
      · omega
    · intro h0
      rcases k3 with k3 | k3
      · omega
      · omega
  · rw [if_neg hc, pure_ok] at h
    have hfield : st.istop = (if sym = true then 0 else 7) ∧ st.itn = 0 ∧ st.residHistory = [] := by rw [← h]; exact ⟨rfl, rfl, rfl⟩
    obtain ⟨f1, f2, f3⟩ := hfield
    have hb0 : sym = true → b = 0 := by
      intro hs1
      rw [hs1, Bool.true_and, decide_eq_true_eq] at hc
      exact normSq_zero (le_antisymm (not_lt.1 hc) (normSq_nonneg b))
    rcases sym with _ | _
    · simp only [Bool.false_eq_true, if_false] at f1
      refine ⟨by omega, by rw [f1]; decide, ⟨beta1, hb1.1, hb1.2, ?_, by rw [f3, f2]; rfl, fun h => (by omega)⟩, ⟨fun _ => h2, fun _ => f1⟩, fun _ => f2, fun h => (by omega), fun h => (by omega)⟩
      refine ⟨?_, ?_, ?_, ?_, ?_, ?_⟩ <;> intro hh <;> omega
    · simp only [if_true] at f1
      refine ⟨by omega, by rw [f1]; decide, ⟨beta1, hb1.1, hb1.2, ?_, by rw [f3, f2]; rfl, fun h => (by omega)⟩, ⟨fun h => (by omega), fun h => by rw [h2] at h; cases h⟩, fun h => (by omega),
        fun _ => ⟨f2, .inl (hb0 rfl)⟩, fun h => (by omega)⟩
      refine ⟨?_, ?_, ?_, ?_, ?_, ?_⟩ <;> intro hh <;> omega

end Verif
