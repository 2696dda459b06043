import Verif.Lemmas.KrylovMono
import Verif.Props.MinresSol
import Verif.Props.Lsmr
/-
Property C95: more iterations of the linear solvers never give a worse result.
-/
set_option autoImplicit false
namespace Verif
open Matrix
variable {α : Type} [Field α] [LinearOrder α] [IsStrictOrderedRing α] {m n : Nat}

/-! ### The iteration limit -/

omit [IsStrictOrderedRing α] in
theorem minresTurn_limit (opts : MinresOpts α) {L L' : Nat} (sqrt : α → Py α) (A : (Fin n → α) → Py (Fin n → α)) (beta1 : α) (st : MinresState α n) (h : st.itn + 1 < L) (h' : st.itn + 1 < L') :
    st.turn { opts with itnlim := L } sqrt A beta1 = st.turn { opts with itnlim := L' } sqrt A beta1 := by
  have hv : ∀ (istop : Int) (t1 t2 : α) (c : Option α) (e b1 : α), minresVerdict { opts with itnlim := L } istop (st.itn + 1) t1 t2 c e b1 =
      minresVerdict { opts with itnlim := L' } istop (st.itn + 1) t1 t2 c e b1 := by
    intro istop t1 t2 c e b1
    unfold minresVerdict
    dsimp only
    rw [if_neg (show ¬ L ≤ st.itn + 1 by omega), if_neg (show ¬ L' ≤ st.itn + 1 by omega)]
  have ha : ∀ lz beta, st.advance { opts with itnlim := L } sqrt beta1 lz beta = st.advance { opts with itnlim := L' } sqrt beta1 lz beta := by
    intro lz beta
    unfold MinresState.advance
    simp only [hv]
    rfl
  unfold MinresState.turn
  simp only [ha]
  rfl

/-- A larger limit: at least as many iterations, and the same outcome if the smaller limit was not reached. -/
theorem minresLoop_limit (opts : MinresOpts α) {L L' : Nat} (hL : L ≤ L') {sqrt : α → Py α} {A : (Fin n → α) → Py (Fin n → α)} {beta1 : α} :
    ∀ (k k' : Nat) {st r r' : MinresState α n}, (st.itn = 0 ∨ ¬ 0 < st.istop) → L - st.itn ≤ k → L' - st.itn ≤ k' →
      Minres.loop { opts with itnlim := L } sqrt A beta1 k st = .ok r → Minres.loop { opts with itnlim := L' } sqrt A beta1 k' st = .ok r' →
      r.itn ≤ r'.itn ∧ (r.itn < L → r' = r)
  | 0, k', st, r, r', hst, hk, hk', h, h' => by
    cases h
    obtain ⟨_, g, _⟩ := loop_induct (fun _ => True) (fun _ _ _ _ _ _ => trivial) k' trivial hst hk' h'
    exact ⟨g, fun hlt => by omega⟩
  | k + 1, k', st, r, r', hst, hk, hk', h, h' => by
    by_cases hlt : st.itn < L
    · obtain ⟨k', rfl⟩ : ∃ d, k' = d + 1 := ⟨k' - 1, by omega⟩
      by_cases h1 : st.itn + 1 < L
      · unfold Minres.loop at h h'
        rw [if_pos hlt] at h
        rw [if_pos (show st.itn < L' by omega), ← minresTurn_limit opts sqrt A beta1 st h1 (by omega)] at h'
        obtain ⟨⟨t, c⟩, h2, h⟩ := bind_ok.1 h
        obtain ⟨⟨t', c'⟩, h2', h'⟩ := bind_ok.1 h'
        obtain ⟨rfl, rfl⟩ := Prod.mk.inj (Except.ok.inj (h2.symm.trans h2'))
        have hi : t.itn = st.itn + 1 := turn_itn st t c h2
        cases c with
        | true => cases h; cases h'; exact ⟨le_rfl, fun _ => rfl⟩
        | false =>
          obtain ⟨_, _, _, _, _, e⟩ := turn_ok h2
          exact minresLoop_limit opts hL k k' (.inr (of_decide_eq_false e.symm)) (by show L - t.itn ≤ k; omega) (by show L' - t.itn ≤ k'; omega) h h'
      · have hr := (loop_induct (fun _ => True) (fun _ _ _ _ _ _ => trivial) (k + 1) trivial hst hk h).2
        have hr' : st.itn + 1 ≤ r'.itn := by
          unfold Minres.loop at h'
          rw [if_pos (show st.itn < L' by omega)] at h'
          obtain ⟨⟨t, c⟩, h2, h'⟩ := bind_ok.1 h'
          have hi : t.itn = st.itn + 1 := turn_itn st t c h2
          cases c with
          | true => cases h'; exact hi.ge
          | false =>
            obtain ⟨_, _, _, _, _, e⟩ := turn_ok h2
            have h3 : t.itn ≤ r'.itn := (loop_induct (fun _ => True) (fun _ _ _ _ _ _ => trivial) k' trivial (.inr (of_decide_eq_false e.symm)) (by show L' - t.itn ≤ k'; omega) h').2.1
            omega
        have hrl : r.itn ≤ L ∨ r.itn = st.itn := hr.2.1
        refine ⟨by omega, fun hl => ?_⟩
        -- the loop of the smaller limit makes this one turn
        exfalso
        have : st.itn + 1 ≤ r.itn := by
          unfold Minres.loop at h
          rw [if_pos hlt] at h
          obtain ⟨⟨t, c⟩, h2, h⟩ := bind_ok.1 h
          have hi : t.itn = st.itn + 1 := turn_itn st t c h2
          cases c with
          | true => cases h; exact hi.ge
          | false =>
            obtain ⟨_, _, _, _, _, e⟩ := turn_ok h2
            have h3 : t.itn ≤ r.itn := (loop_induct (fun _ => True) (fun _ _ _ _ _ _ => trivial) k trivial (.inr (of_decide_eq_false e.symm)) (by show L - t.itn ≤ k; omega) h).2.1
            omega
        omega
    · unfold Minres.loop at h
      rw [if_neg hlt] at h
      cases h
      obtain ⟨_, g, _⟩ := loop_induct (fun _ => True) (fun _ _ _ _ _ _ => trivial) k' trivial hst hk' h'
      exact ⟨g, fun hl => absurd hl hlt⟩

/-- **C95 (MINRES, limit).** With a larger iteration limit a solve makes at least as many iterations, and leaves the same attributes if it had ended before the limit. -/
theorem C95_minres_limit (opts : MinresOpts α) {L L' : Nat} (hL : L ≤ L') {sqrt : α → Py α} {A : (Fin n → α) → Py (Fin n → α)} {probes : List (Fin n → α)} {b : Fin n → α}
    {st st' : MinresState α n} (h : Minres.solve { opts with itnlim := L } sqrt A probes b = .ok st) (h' : Minres.solve { opts with itnlim := L' } sqrt A probes b = .ok st') :
    st.itn ≤ st'.itn ∧ (st.itn < L → st' = st) := by
  unfold Minres.solve at h h'
  obtain ⟨beta1, h1, h⟩ := bind_ok.1 h
  obtain ⟨beta1', h1', h'⟩ := bind_ok.1 h'
  have e1 := Except.ok.inj (h1.symm.trans h1')
  subst e1
  obtain ⟨sym, h2, h⟩ := bind_ok.1 h
  obtain ⟨sym', h2', h'⟩ := bind_ok.1 h'
  have hs : ∀ pr : List (Fin n → α), checkSymmetric { opts with itnlim := L } A pr = checkSymmetric { opts with itnlim := L' } A pr := by
    intro pr
    induction pr with
    | nil => rfl
    | cons x pr ih =>
      unfold checkSymmetric
      simp only [ih]
  have e2 : sym = sym' := by
    have e3 : Minres.symmetric { opts with itnlim := L } A probes = Minres.symmetric { opts with itnlim := L' } A probes := by
      unfold Minres.symmetric
      simp only [hs]
    exact Except.ok.inj (h2.symm.trans (e3.trans h2'))
  subst e2
  by_cases hc : (sym && decide (0 < b ⬝ᵥ b)) = true
  · rw [if_pos hc] at h h'
    exact minresLoop_limit opts hL L L' (.inl rfl) (by show L - 0 ≤ L; omega) (by show L' - 0 ≤ L'; omega) h h'
  · rw [if_neg hc] at h h'
    cases h; cases h'
    exact ⟨le_rfl, fun _ => rfl⟩

/-! ### MINRES -/

/-- **C95 (MINRES).** Of two solves of the same equations, whatever their tolerances and limits, the one with more iterations reports a residual which is not larger. For a positive definite
matrix, the inner product of its result with the right-hand side (a variance of the covariance matrix) is not smaller, and its error is not larger. -/
theorem C95_minres {M : Matrix (Fin n) (Fin n) α} (hM : M.IsSymm) {o o' : MinresOpts α} (ho : o.shift = 0 ∧ 0 < o.eps ∧ BoundedBelow M o.eps)
    (ho' : o'.shift = 0 ∧ 0 < o'.eps ∧ BoundedBelow M o'.eps) {sqrt : α → Py α} (hs : IsSqrt sqrt) {A : (Fin n → α) → Py (Fin n → α)} (hA : ∀ v, A v = .ok (M *ᵥ v))
    {probes probes' : List (Fin n → α)} {b : Fin n → α} {st st' : MinresState α n} (h : Minres.solve o sqrt A probes b = .ok st) (h' : Minres.solve o' sqrt A probes' b = .ok st')
    (h1 : 1 ≤ st.itn) (hle : st.itn ≤ st'.itn) :
    st'.rnorm ≤ st.rnorm ∧ normSq (b - M *ᵥ st'.x) ≤ normSq (b - M *ᵥ st.x) ∧
      ((∀ v, v ≠ 0 → 0 < v ⬝ᵥ (M *ᵥ v)) → 0 ≤ b ⬝ᵥ st.x ∧ b ⬝ᵥ st.x ≤ b ⬝ᵥ st'.x ∧
        ∀ s, M *ᵥ s = b → b ⬝ᵥ st'.x ≤ b ⬝ᵥ s ∧ (s - st'.x) ⬝ᵥ (M *ᵥ (s - st'.x)) ≤ (s - st.x) ⬝ᵥ (M *ᵥ (s - st.x))) := by
  obtain ⟨q1, q2, q3⟩ := ho
  obtain ⟨q1', q2', q3'⟩ := ho'
  have z : ∀ c : α, c = 0 → M - c • (1 : Matrix (Fin n) (Fin n) α) = M := by
    intro c hc
    rw [hc, zero_smul, sub_zero]
  obtain ⟨_, a2, a3, a4, a5, _⟩ := C61_minres hM q2 (by rw [z _ q1]; exact q3) hs hA h h1
  obtain ⟨_, b2, b3, b4, b5, _⟩ := C61_minres hM q2' (by rw [z _ q1']; exact q3') hs hA h' (h1.trans hle)
  rw [z _ q1] at a2 a4 a5
  rw [z _ q1'] at b2 b4 b5
  have hres := b5 _ (krylov_mono hle a2)
  refine ⟨?_, hres, ?_⟩
  · rw [← a4, ← b4] at hres
    exact (mul_self_le_mul_self_iff b3 a3).2 hres
  · intro hpos
    obtain ⟨i1, i2⟩ := best_improves hM (S := ⊤) (fun v _ h => hpos v h) (fun _ => trivial) trivial hle ⟨a2, a5⟩ ⟨b2, b5⟩
    have hz : BestIn M b 0 0 := by
      refine ⟨Submodule.zero_mem _, fun y hy => ?_⟩
      have hbot : krylov M b 0 = ⊥ := by
        unfold krylov
        rw [Submodule.span_eq_bot]
        rintro x ⟨j, hj, _⟩
        omega
      rw [hbot] at hy
      rw [(Submodule.mem_bot α).1 hy]
    obtain ⟨i0, _⟩ := best_improves hM (S := ⊤) (fun v _ h => hpos v h) (fun _ => trivial) trivial (Nat.zero_le st.itn) hz ⟨a2, a5⟩
    refine ⟨by simpa using i0, i1, ?_⟩
    intro s hs'
    have hr := best_dot_residual hM hpos b2 b5
    have e : ∀ x, (s - x) ⬝ᵥ (M *ᵥ (s - x)) = b ⬝ᵥ s - x ⬝ᵥ (b + (b - M *ᵥ x)) := by
      intro x
      have e1 : s ⬝ᵥ (M *ᵥ x) = x ⬝ᵥ b := by rw [symm_dot hM, hs', dotProduct_comm]
      simp only [mulVec_sub, sub_dotProduct, dotProduct_sub, dotProduct_add, hs', e1]
      rw [dotProduct_comm s b]
      ring
    refine ⟨?_, by rw [e, e]; linarith⟩
    have hnn : 0 ≤ (s - st'.x) ⬝ᵥ (M *ᵥ (s - st'.x)) := by
      by_cases h0 : s - st'.x = 0
      · rw [h0]; simp
      · exact (hpos _ h0).le
    rw [e, dotProduct_add, dotProduct_comm st'.x b] at hnn
    linarith

/-! ### LSMR -/

omit [IsStrictOrderedRing α] in
theorem lsmrTurn_itn {opts : LsmrOpts α} {sqrt : α → Py α} {A : (Fin n → α) → Py (Fin m → α)} {AH : (Fin m → α) → Py (Fin n → α)} {normb ctol : α} {st st' : LsmrState α m n}
    (h : st.turn opts sqrt A AH normb ctol = .ok st') : st'.itn = st.itn + 1 := by
  unfold LsmrState.turn at h
  obtain ⟨_, _, h⟩ := bind_ok.1 h
  obtain ⟨⟨_, _, _⟩, _, h⟩ := bind_ok.1 h
  obtain ⟨⟨_, _, _⟩, _, h⟩ := bind_ok.1 h
  obtain ⟨⟨_, _, _⟩, _, h⟩ := bind_ok.1 h
  obtain ⟨_, _, h⟩ := bind_ok.1 h
  obtain ⟨_, _, h⟩ := bind_ok.1 h
  obtain ⟨_, _, h⟩ := bind_ok.1 h
  obtain ⟨_, _, h⟩ := bind_ok.1 h
  obtain ⟨⟨_, _, _⟩, _, h⟩ := bind_ok.1 h
  obtain ⟨_, _, h⟩ := bind_ok.1 h
  obtain ⟨_, _, h⟩ := bind_ok.1 h
  obtain ⟨_, _, h⟩ := bind_ok.1 h
  obtain ⟨_, _, h⟩ := bind_ok.1 h
  obtain ⟨_, _, h⟩ := bind_ok.1 h
  obtain ⟨_, _, h⟩ := bind_ok.1 h
  obtain ⟨_, _, h⟩ := bind_ok.1 h
  obtain ⟨_, _, h⟩ := bind_ok.1 h
  obtain ⟨_, _, h⟩ := bind_ok.1 h
  obtain ⟨_, _, h⟩ := bind_ok.1 h
  obtain ⟨_, _, h⟩ := bind_ok.1 h
  obtain ⟨_, _, h⟩ := bind_ok.1 h
  cases h
  rfl

omit [IsStrictOrderedRing α] in
theorem lsmrTurn_limit (opts : LsmrOpts α) {L L' : Nat} (sqrt : α → Py α) (A : (Fin n → α) → Py (Fin m → α)) (AH : (Fin m → α) → Py (Fin n → α)) (normb ctol : α)
    (st : LsmrState α m n) (h : st.itn + 1 < L) (h' : st.itn + 1 < L') :
    st.turn { opts with itnlim := L } sqrt A AH normb ctol = st.turn { opts with itnlim := L' } sqrt A AH normb ctol := by
  have hv : ∀ (istop : Nat) (t1 t2 t3 t4 r c : α), lsmrVerdict { opts with itnlim := L } istop (st.itn + 1) t1 t2 t3 t4 r c =
      lsmrVerdict { opts with itnlim := L' } istop (st.itn + 1) t1 t2 t3 t4 r c := by
    intro istop t1 t2 t3 t4 r c
    unfold lsmrVerdict
    dsimp only
    rw [if_neg (show ¬ L ≤ st.itn + 1 by omega), if_neg (show ¬ L' ≤ st.itn + 1 by omega)]
  unfold LsmrState.turn
  simp only [hv]
  rfl

omit [IsStrictOrderedRing α] in
theorem lsmrLoop_itn {opts : LsmrOpts α} {sqrt : α → Py α} {A : (Fin n → α) → Py (Fin m → α)} {AH : (Fin m → α) → Py (Fin n → α)} {normb ctol : α} :
    ∀ (k : Nat) {st r : LsmrState α m n}, Lsmr.loop opts sqrt A AH normb ctol k st = .ok r →
      st.itn ≤ r.itn ∧ (r.itn ≤ opts.itnlim ∨ r.itn = st.itn) ∧ (1 ≤ k → st.itn < opts.itnlim → st.itn < r.itn)
  | 0, st, r, h => by
    cases h
    exact ⟨le_rfl, .inr rfl, by omega⟩
  | k + 1, st, r, h => by
    unfold Lsmr.loop at h
    by_cases hlt : st.itn < opts.itnlim
    · rw [if_pos hlt] at h
      obtain ⟨t, h2, h⟩ := bind_ok.1 h
      have hi := lsmrTurn_itn h2
      by_cases hz : 0 < t.istop
      · rw [if_pos hz] at h
        cases h
        exact ⟨by omega, by omega, by omega⟩
      · rw [if_neg hz] at h
        obtain ⟨g1, g2, _⟩ := lsmrLoop_itn k h
        exact ⟨by omega, by omega, by omega⟩
    · rw [if_neg hlt] at h
      cases h
      exact ⟨le_rfl, .inr rfl, by omega⟩

omit [IsStrictOrderedRing α] in
theorem lsmrLoop_limit (opts : LsmrOpts α) {L L' : Nat} (hL : L ≤ L') {sqrt : α → Py α} {A : (Fin n → α) → Py (Fin m → α)} {AH : (Fin m → α) → Py (Fin n → α)} {normb ctol : α} :
    ∀ (k k' : Nat) {st r r' : LsmrState α m n}, L - st.itn ≤ k → L' - st.itn ≤ k' →
      Lsmr.loop { opts with itnlim := L } sqrt A AH normb ctol k st = .ok r → Lsmr.loop { opts with itnlim := L' } sqrt A AH normb ctol k' st = .ok r' →
      r.itn ≤ r'.itn ∧ (r.itn < L → r' = r)
  | 0, k', st, r, r', hk, hk', h, h' => by
    cases h
    exact ⟨(lsmrLoop_itn k' h').1, fun hlt => by omega⟩
  | k + 1, k', st, r, r', hk, hk', h, h' => by
    by_cases hlt : st.itn < L
    · obtain ⟨k', rfl⟩ : ∃ d, k' = d + 1 := ⟨k' - 1, by omega⟩
      have hr : _ ∧ (r.itn ≤ L ∨ r.itn = st.itn) ∧ (_ → st.itn < L → st.itn < r.itn) := lsmrLoop_itn (k + 1) h
      have hr' : _ ∧ (r'.itn ≤ L' ∨ r'.itn = st.itn) ∧ (_ → st.itn < L' → st.itn < r'.itn) := lsmrLoop_itn (k' + 1) h'
      by_cases h1 : st.itn + 1 < L
      · unfold Lsmr.loop at h h'
        rw [if_pos hlt] at h
        rw [if_pos (show st.itn < L' by omega), ← lsmrTurn_limit opts sqrt A AH normb ctol st h1 (by omega)] at h'
        obtain ⟨t, h2, h⟩ := bind_ok.1 h
        obtain ⟨t', h2', h'⟩ := bind_ok.1 h'
        obtain rfl := Except.ok.inj (h2.symm.trans h2')
        have hi := lsmrTurn_itn h2
        by_cases hz : 0 < t.istop
        · rw [if_pos hz] at h h'
          cases h; cases h'; exact ⟨le_rfl, fun _ => rfl⟩
        · rw [if_neg hz] at h h'
          exact lsmrLoop_limit opts hL k k' (by omega) (by omega) h h'
      · have g1 := hr.2.2 (by omega) hlt
        have g2 := hr'.2.2 (by omega) (by omega)
        exact ⟨by omega, fun hl => by omega⟩
    · unfold Lsmr.loop at h
      rw [if_neg hlt] at h
      cases h
      exact ⟨(lsmrLoop_itn k' h').1, fun hl => absurd hl hlt⟩

omit [IsStrictOrderedRing α] in
/-- **C95 (LSMR, limit).** With a larger iteration limit a solve makes at least as many iterations, and returns the same if it had ended before the limit. -/
theorem C95_lsmr_limit (opts : LsmrOpts α) {L L' : Nat} (hL : L ≤ L') {sqrt : α → Py α} {A : (Fin n → α) → Py (Fin m → α)} {AH : (Fin m → α) → Py (Fin n → α)} {b : Fin m → α}
    {held : Option (Fin n → α)} {st st' : LsmrState α m n} {x x' : Option (Fin n → α)} (h : Lsmr.solve { opts with itnlim := L } sqrt A AH b held = .ok (st, x))
    (h' : Lsmr.solve { opts with itnlim := L' } sqrt A AH b held = .ok (st', x')) : st.itn ≤ st'.itn ∧ (st.itn < L → st' = st ∧ x' = x) := by
  unfold Lsmr.solve at h h'
  obtain ⟨bi, h1, h⟩ := bind_ok.1 h
  obtain ⟨bi', h1', h'⟩ := bind_ok.1 h'
  obtain rfl := Except.ok.inj (h1.symm.trans h1')
  obtain ⟨nA, h2, h⟩ := bind_ok.1 h
  obtain ⟨nA', h2', h'⟩ := bind_ok.1 h'
  obtain rfl := Except.ok.inj (h2.symm.trans h2')
  change (if bi.alpha * bi.beta = 0 then _ else _) = _ at h h'
  by_cases hz : bi.alpha * bi.beta = 0
  · rw [if_pos hz] at h h'
    cases h; cases h'
    exact ⟨le_rfl, fun _ => ⟨rfl, rfl⟩⟩
  · rw [if_neg hz] at h h'
    obtain ⟨t, h3, h⟩ := bind_ok.1 h
    obtain ⟨t', h3', h'⟩ := bind_ok.1 h'
    cases h; cases h'
    obtain ⟨g1, g2⟩ := lsmrLoop_limit opts hL L L' (by show L - 0 ≤ L; omega) (by show L' - 0 ≤ L'; omega) h3 h3'
    exact ⟨g1, fun hl => ⟨g2 hl, by rw [g2 hl]⟩⟩

/-- **C95 (LSMR).** Of two solves of the same least-squares problem, whatever their tolerances and limits, the one with more iterations reports neither a larger residual nor a larger
gradient. -/
theorem C95_lsmr {A0 : Matrix (Fin m) (Fin n) α} {b : Fin m → α} {o o' : LsmrOpts α} (hd : o.damp = 0) (hh : 0 < o.huge) (hd' : o'.damp = 0) (hh' : 0 < o'.huge) {sqrt : α → Py α}
    (hs : IsSqrt sqrt) {A : (Fin n → α) → Py (Fin m → α)} {AH : (Fin m → α) → Py (Fin n → α)} (hA : ∀ v, A v = .ok (A0 *ᵥ v)) (hAH : ∀ u, AH u = .ok (A0ᵀ *ᵥ u))
    {held held' : Option (Fin n → α)} {st st' : LsmrState α m n} {x x' : Option (Fin n → α)} (h : Lsmr.solve o sqrt A AH b held = .ok (st, x))
    (h' : Lsmr.solve o' sqrt A AH b held' = .ok (st', x')) (hle : st.itn ≤ st'.itn) :
    st'.normar ≤ st.normar ∧ st'.normr ≤ st.normr ∧ normSq (A0ᵀ *ᵥ (b - A0 *ᵥ st'.x)) ≤ normSq (A0ᵀ *ᵥ (b - A0 *ᵥ st.x)) ∧
      normSq (b - A0 *ᵥ st'.x) ≤ normSq (b - A0 *ᵥ st.x) := by
  obtain ⟨_, _, _, a1, a2, a3, a4, a5, _, _, a6⟩ := C62_lsmr hd hh hs hA hAH h
  obtain ⟨_, _, _, b1, b2, b3, b4, b5, _, _, b6⟩ := C62_lsmr hd' hh' hs hA hAH h'
  have e : ∀ w, A0ᵀ *ᵥ b - (A0ᵀ * A0) *ᵥ w = A0ᵀ *ᵥ (b - A0 *ᵥ w) := by
    intro w
    rw [mulVec_sub, mulVec_mulVec]
  have hgrad := b6 _ (krylov_mono hle a1)
  have hM : (A0ᵀ * A0).IsSymm := by
    unfold Matrix.IsSymm
    rw [transpose_mul, transpose_transpose]
  have gram : ∀ u v : Fin n → α, u ⬝ᵥ ((A0ᵀ * A0) *ᵥ v) = (A0 *ᵥ u) ⬝ᵥ (A0 *ᵥ v) := by
    intro u v
    rw [← mulVec_mulVec, dotProduct_mulVec, vecMul_transpose]
  have hpos : ∀ v ∈ LinearMap.range A0ᵀ.mulVecLin, v ≠ 0 → 0 < v ⬝ᵥ ((A0ᵀ * A0) *ᵥ v) := by
    rintro _ ⟨w, rfl⟩ hne
    rw [mulVecLin_apply] at hne ⊢
    rw [gram]
    rcases (normSq_nonneg (A0 *ᵥ (A0ᵀ *ᵥ w))).lt_or_eq with h' | h'
    · exact h'
    · have h0 := normSq_zero h'.symm
      exfalso
      apply hne
      apply normSq_zero
      have : (A0ᵀ *ᵥ w) ⬝ᵥ (A0ᵀ *ᵥ w) = (A0 *ᵥ (A0ᵀ *ᵥ w)) ⬝ᵥ w := by
        rw [dotProduct_mulVec, vecMul_transpose]
      rw [this, h0, zero_dotProduct]
  have hrange : ∀ v, (A0ᵀ * A0) *ᵥ v ∈ LinearMap.range A0ᵀ.mulVecLin := fun v => ⟨A0 *ᵥ v, by rw [mulVecLin_apply, mulVec_mulVec]⟩
  obtain ⟨_, i2⟩ := best_improves hM (S := LinearMap.range A0ᵀ.mulVecLin) hpos hrange ⟨b, rfl⟩ hle
    (x := st.x) (y := st'.x) (b := A0ᵀ *ᵥ b) ⟨a1, fun y hy => by rw [e, e]; exact a6 y hy⟩ ⟨b1, fun y hy => by rw [e, e]; exact b6 y hy⟩
  have e2 : ∀ w, normSq (b - A0 *ᵥ w) = normSq b - w ⬝ᵥ (A0ᵀ *ᵥ b + (A0ᵀ *ᵥ b - (A0ᵀ * A0) *ᵥ w)) := by
    intro w
    have e3 : w ⬝ᵥ (A0ᵀ *ᵥ b) = b ⬝ᵥ (A0 *ᵥ w) := by rw [dotProduct_mulVec, vecMul_transpose, dotProduct_comm]
    rw [dotProduct_add, dotProduct_sub, gram, e3, normSq_eq, normSq_eq, sub_dotProduct, dotProduct_sub, dotProduct_sub, dotProduct_comm (A0 *ᵥ w) b]
    ring
  have hres : normSq (b - A0 *ᵥ st'.x) ≤ normSq (b - A0 *ᵥ st.x) := by rw [e2, e2]; linarith
  refine ⟨?_, ?_, hgrad, hres⟩
  · rw [← a5, ← b5] at hgrad
    exact (mul_self_le_mul_self_iff b4 a4).2 hgrad
  · rw [← a3, ← b3] at hres
    exact (mul_self_le_mul_self_iff b2 a2).2 hres

end Verif
