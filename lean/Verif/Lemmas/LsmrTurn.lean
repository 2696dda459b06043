import Verif.Lemmas.Lsmr
/-
LSMR: the equations of one turn of the loop, without damping.
-/
set_option autoImplicit false
namespace Verif
variable {α : Type} [Field α] [LinearOrder α] [IsStrictOrderedRing α] {m n : Nat}
open Matrix

/-- What one turn computes: `c`, `s` are the rotation of the bidiagonal matrix, `ct`, `sl`, `rt` the one of the residual norm, `taud` the last component of its
right-hand side. -/
structure LsmrCore (opts : LsmrOpts α) (sqrt : α → Py α) (A : (Fin n → α) → Py (Fin m → α)) (AH : (Fin m → α) → Py (Fin n → α))
    (st st' : LsmrState α m n) (c s ct sl rt taud : α) : Prop where
  bidiag : st.bidiag sqrt A AH = .ok { u := st'.u, beta := st'.beta, v := st'.v, alpha := st'.alpha }
  itn : st'.itn = st.itn + 1
  rot : c * c + s * s = 1
  c_rho : c * st'.rho = st.alphabar
  s_rho : s * st'.rho = st'.beta
  c_nonneg : 0 ≤ c
  rho_nonneg : 0 ≤ st'.rho
  abar : st'.alphabar = c * st'.alpha
  rotb : st'.cbar * st'.cbar + st'.sbar * st'.sbar = 1
  cb : st'.cbar * st'.rhobar = st.cbar * st'.rho
  sb : st'.sbar * st'.rhobar = s * st'.alpha
  rhobar_nonneg : 0 ≤ st'.rhobar
  zeta : st'.zeta = st'.cbar * st.zetabar
  zetabar : st'.zetabar = -st'.sbar * st.zetabar
  hbar : st'.hbar = st.h - (st.sbar * st'.rho * st'.rho / (st.rho * st.rhobar)) • st.hbar
  rr : st'.rho * st'.rhobar ≠ 0
  x : st'.x = st.x + (st'.zeta / (st'.rho * st'.rhobar)) • st'.hbar
  h : st'.h = st'.v - (s * st'.alpha / st'.rho) • st.h
  betadd : st'.betadd = -s * st.betadd
  rott : ct * ct + sl * sl = 1
  ct_rt : ct * rt = st.rhodold
  sl_rt : sl * rt = st.sbar * st'.rho
  rt0 : rt ≠ 0
  rt_nonneg : 0 ≤ rt
  thetatilde : st'.thetatilde = sl * st'.rhobar
  rhodold : st'.rhodold = ct * st'.rhobar
  rhodold0 : st'.rhodold ≠ 0
  betad : st'.betad = -sl * st.betad + ct * (c * st.betadd)
  tautilde : st'.tautildeold * rt = st.zeta - st.thetatilde * st.tautildeold
  taud_eq : taud * st'.rhodold = st'.zeta - st'.thetatilde * st'.tautildeold
  d : st'.d = st.d
  normr : 0 ≤ st'.normr ∧ st'.normr * st'.normr = st'.d + (st'.betad - taud) ^ 2 + st'.betadd * st'.betadd
  normar : st'.normar = |st'.zetabar|
  normx : 0 ≤ st'.normx ∧ st'.normx * st'.normx = st'.x ⬝ᵥ st'.x
  normA2 : st'.normA2 = st.normA2 + st'.beta * st'.beta + st'.alpha * st'.alpha
  normA : 0 ≤ st'.normA ∧ st'.normA * st'.normA = st.normA2 + st'.beta * st'.beta
  xNrg : st'.xNrgNorm2 = st.xNrgNorm2 + st'.zeta * st'.zeta
  dErr : st'.dErr = st.dErr.set (st'.itn % opts.window) st'.zeta
  maxrbar : st'.maxrbar = max st.maxrbar st.rhobar
  minrbar : st'.minrbar = if 1 < st'.itn then min st.minrbar st.rhobar else st.minrbar
  condA : st'.condA = max st'.maxrbar (st.cbar * st'.rho) / min st'.minrbar (st.cbar * st'.rho)

/-- What a turn computes when it returns: no divisor of the stopping tests is zero. -/
structure LsmrTurn (opts : LsmrOpts α) (sqrt : α → Py α) (A : (Fin n → α) → Py (Fin m → α)) (AH : (Fin m → α) → Py (Fin n → α)) (normb ctol : α)
    (st st' : LsmrState α m n) (c s ct sl rt taud : α) : Prop extends
    LsmrCore opts sqrt A AH st st' c s ct sl rt taud where
  normb0 : normb ≠ 0
  normr0 : st'.normA * st'.normr ≠ 0
  condA0 : st'.condA ≠ 0
  stop : ∃ i8, LsmrState.directError opts sqrt st.istop st'.itn st'.dErr st'.xNrgNorm2 = .ok i8 ∧
    st'.istop = lsmrVerdict opts i8 st'.itn (st'.normr / normb) (st'.normar / (st'.normA * st'.normr)) (1 / st'.condA)
      (st'.normr / normb / (1 + st'.normA * st'.normx / normb)) (opts.btol + opts.atol * st'.normA * st'.normx / normb) ctol

theorem lsmrCore_of {opts : LsmrOpts α} (hd : opts.damp = 0) {sqrt : α → Py α} (hs : IsSqrt sqrt) {A : (Fin n → α) → Py (Fin m → α)}
    {AH : (Fin m → α) → Py (Fin n → α)} {st : LsmrState α m n} (hab : 0 ≤ st.alphabar) {bi : Bidiag α m n} (h1 : st.bidiag sqrt A AH = .ok bi)
    {c s rho : α} (h3 : symOrtho sqrt st.alphabar bi.beta = .ok (c, s, rho)) {cbar sbar rhobar : α}
    (h4 : symOrtho sqrt (st.cbar * rho) (s * bi.alpha) = .ok (cbar, sbar, rhobar)) (p6 : rho * rhobar ≠ 0) {ct sl rt : α}
    (h9 : symOrtho sqrt st.rhodold (st.sbar * rho) = .ok (ct, sl, rt)) (p10 : rt ≠ 0) (p11 : ct * rhobar ≠ 0) {td : α}
    (e11 : td = (cbar * st.zetabar - sl * rhobar * ((st.zeta - st.thetatilde * st.tautildeold) / rt)) / (ct * rhobar)) {normr : α}
    (h12 : sqrt (st.d + -0 * st.betadd * (-0 * st.betadd) + (-sl * st.betad + ct * (c * (1 * st.betadd)) - td) ^ 2 + -s * (1 * st.betadd) * (-s * (1 * st.betadd))) = .ok normr)
    {normA : α} (h13 : sqrt (st.normA2 + bi.beta * bi.beta) = .ok normA) {hbar : Fin n → α}
    (ehb : hbar = st.h - (st.sbar * rho * rho / (st.rho * st.rhobar)) • st.hbar) {normx : α}
    (h15 : sqrt ((st.x + (cbar * st.zetabar / (rho * rhobar)) • hbar) ⬝ᵥ (st.x + (cbar * st.zetabar / (rho * rhobar)) • hbar)) = .ok normx) (istop : Nat) {condA : α}
    (h14 : condA = max (max st.maxrbar st.rhobar) (st.cbar * rho) / min (if 1 < st.itn + 1 then min st.minrbar st.rhobar else st.minrbar) (st.cbar * rho)) :
    LsmrCore opts sqrt A AH st
      { istop := istop, itn := st.itn + 1, u := bi.u, v := bi.v, beta := bi.beta, alpha := bi.alpha, zetabar := -sbar * st.zetabar, alphabar := c * bi.alpha
        rho := rho, rhobar := rhobar, cbar := cbar, sbar := sbar, h := bi.v - (s * bi.alpha / rho) • st.h, hbar := hbar
        x := st.x + (cbar * st.zetabar / (rho * rhobar)) • hbar, betadd := -s * (1 * st.betadd), betad := -sl * st.betad + ct * (c * (1 * st.betadd))
        rhodold := ct * rhobar, tautildeold := (st.zeta - st.thetatilde * st.tautildeold) / rt, thetatilde := sl * rhobar, zeta := cbar * st.zetabar
        d := st.d + -0 * st.betadd * (-0 * st.betadd), normA2 := st.normA2 + bi.beta * bi.beta + bi.alpha * bi.alpha, maxrbar := max st.maxrbar st.rhobar
        minrbar := if 1 < st.itn + 1 then min st.minrbar st.rhobar else st.minrbar, normA := normA, condA := condA, normx := normx, normr := normr
        normar := |(-sbar * st.zetabar)|, xNrgNorm2 := st.xNrgNorm2 + cbar * st.zetabar * (cbar * st.zetabar)
        dErr := st.dErr.set ((st.itn + 1) % opts.window) (cbar * st.zetabar) } c s ct sl rt td := by
  obtain ⟨g1, g2, g3, g4, g5, g6⟩ := symOrtho_ok hs h3
  obtain ⟨b1, b2, b3, b4, _, _⟩ := symOrtho_ok hs h4
  obtain ⟨t1', t2', t3', t4', _, _⟩ := symOrtho_ok hs h9
  constructor
  · exact h1
  · rfl
  · exact g1
  · exact g2
  · exact g3
  · exact g5 hab
  · exact g4
  · rfl
  · exact b1
  · exact b2
  · exact b3
  · exact b4
  · rfl
  · rfl
  · exact ehb
  · exact p6
  · rfl
  · rfl
  · show -s * (1 * st.betadd) = -s * st.betadd
    rw [one_mul]
  · exact t1'
  · exact t2'
  · exact t3'
  · exact p10
  · exact t4'
  · rfl
  · rfl
  · exact p11
  · show -sl * st.betad + ct * (c * (1 * st.betadd)) = _
    rw [one_mul]
  · exact div_mul_cancel₀ _ p10
  · rw [e11]; exact div_mul_cancel₀ _ p11
  · show st.d + -0 * st.betadd * (-0 * st.betadd) = st.d
    ring
  · exact hs _ _ h12
  · rfl
  · exact hs _ _ h15
  · rfl
  · exact hs _ _ h13
  · rfl
  · rfl
  · rfl
  · rfl
  · exact h14

theorem lsmrTurn_ok {opts : LsmrOpts α} (hd : opts.damp = 0) {sqrt : α → Py α} (hs : IsSqrt sqrt) {A : (Fin n → α) → Py (Fin m → α)}
    {AH : (Fin m → α) → Py (Fin n → α)} {normb ctol : α} {st st' : LsmrState α m n} (hab : 0 ≤ st.alphabar)
    (h : st.turn opts sqrt A AH normb ctol = .ok st') : ∃ c s ct sl rt taud, LsmrTurn opts sqrt A AH normb ctol st st' c s ct sl rt taud := by
  unfold LsmrState.turn at h
  obtain ⟨bi, h1, h⟩ := bind_ok.1 h
  obtain ⟨⟨chat, shat, alphahat⟩, h2, h⟩ := bind_ok.1 h
  have e2 : chat = 1 ∧ shat = 0 ∧ alphahat = st.alphabar := by
    unfold symOrtho at h2
    rw [if_pos hd, pure_ok, Prod.mk.injEq, Prod.mk.injEq] at h2
    obtain ⟨rfl, rfl, rfl⟩ := h2
    exact ⟨(signOf_mul _).2.2.2 hab, rfl, abs_of_nonneg hab⟩
  obtain ⟨rfl, rfl, rfl⟩ := e2
  obtain ⟨⟨c, s, rho⟩, h3, h⟩ := bind_ok.1 h
  obtain ⟨⟨cbar, sbar, rhobar⟩, h4, h⟩ := bind_ok.1 h
  obtain ⟨q1, h5, h⟩ := bind_ok.1 h
  obtain ⟨q2, h6, h⟩ := bind_ok.1 h
  obtain ⟨q3, h7, h⟩ := bind_ok.1 h
  obtain ⟨i8, h8, h⟩ := bind_ok.1 h
  obtain ⟨⟨ct, sl, rt⟩, h9, h⟩ := bind_ok.1 h
  obtain ⟨tt, h10, h⟩ := bind_ok.1 h
  obtain ⟨td, h11, h⟩ := bind_ok.1 h
  obtain ⟨normr, h12, h⟩ := bind_ok.1 h
  obtain ⟨normA, h13, h⟩ := bind_ok.1 h
  obtain ⟨condA, h14, h⟩ := bind_ok.1 h
  obtain ⟨normx, h15, h⟩ := bind_ok.1 h
  obtain ⟨test1, h16, h⟩ := bind_ok.1 h
  obtain ⟨test2, h17, h⟩ := bind_ok.1 h
  obtain ⟨test3, h18, h⟩ := bind_ok.1 h
  obtain ⟨q4, h19, h⟩ := bind_ok.1 h
  obtain ⟨t1, h20, h⟩ := bind_ok.1 h
  obtain ⟨q5, h21, h⟩ := bind_ok.1 h
  rw [pure_ok] at h
  obtain ⟨_, rfl⟩ := pyDiv_ok h5
  obtain ⟨p6, rfl⟩ := pyDiv_ok h6
  obtain ⟨_, rfl⟩ := pyDiv_ok h7
  obtain ⟨p10, rfl⟩ := pyDiv_ok h10
  obtain ⟨p11, e11⟩ := pyDiv_ok h11
  obtain ⟨p16, rfl⟩ := pyDiv_ok h16
  obtain ⟨p17, rfl⟩ := pyDiv_ok h17
  obtain ⟨p18, rfl⟩ := pyDiv_ok h18
  obtain ⟨_, rfl⟩ := pyDiv_ok h19
  obtain ⟨_, rfl⟩ := pyDiv_ok h20
  obtain ⟨_, rfl⟩ := pyDiv_ok h21
  refine ⟨c, s, ct, sl, rt, td, ?_⟩
  subst h
  exact ⟨lsmrCore_of hd hs hab h1 h3 h4 p6 h9 p10 p11 e11 h12 h13 rfl h15 _ (pyDiv_ok h14).2, p16, p17, p18, i8, h8, rfl⟩

end Verif
