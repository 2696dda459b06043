import Verif.Lemmas.PCJac
import Verif.Props.Jacobian
/-
C59: residuals and Jacobian of the preconditioner.
-/
set_option autoImplicit false
namespace Verif
open Finset (sum_congr)
variable {α δ : Type}

section
variable [Field α] {ms : Evaluable α δ} {labels clabels : List String} {m : Nat} {p : PC α δ}

theorem colsMul_eq {M : List (List α)} {v : List α} {n : Nat} (hM : M.length = n) (hv : v.length = n) (r : Nat) :
    colsMul M v r = ∑ c ∈ Finset.range n, ent (M.getD c []) r * ent v c := by
  unfold colsMul
  rw [← list_sum_range]
  congr 1
  apply List.ext_getElem
  · simp [hM, hv]
  · intro i h1 h2
    have hi : i < n := by simpa using h2
    simp [ent, List.getD, hM, hv, hi]

theorem PC.setParams_eq {a : List α} (hv : pyLast p.hd.mu.idx.idx = .ok p.hd.mu.values.length) (hx : p.xyza.length = p.hd.mu.values.length + p.hd.a.length)
    (ha : a.length = p.hd.a.length) : p.setParams a = .ok (p.at a) := by
  unfold PC.setParams PC.at
  rw [hv]
  have hs := setSlice_eq (l := p.xyza) (a := p.hd.mu.values.length) (b := p.hd.mu.values.length + p.hd.a.length) (v := a)
    (by omega) (by omega) (by omega)
  simp only [hs, bind, Except.bind, pure, Except.pure]
  rw [List.drop_of_length_le (by omega), List.append_nil]

/-- **C59**, any field: on a solvable, normalised match-up whose uncertainties have no W matrix and whose models do not use track indices and times, at
any estimate of the parameters: the K residuals of the preconditioner are those of the full solver with the variables held fixed, and the columns
of its Jacobian are the columns of the full solver's Jacobian that belong to the parameters. -/
theorem C59_residuals (h : ms.SolverReady labels clabels m) (hnorm : ms.normalise = .ok p.hd) (hx : p.xyza.length = p.hd.mu.values.length + p.hd.a.length)
    (ht : ∀ u ∈ ms.mu.unc, u.unc.typeID = 1 ∨ u.unc.typeID = 2) (htl : ms.IgnoresTimes labels clabels) (a : List α) (ha : a.length = p.hd.a.length) :
    ∃ k Ja F, p.calcFJ a = .ok (k, Ja) ∧ k.length = p.hd.mu.ks.length ∧ Ja.length = p.hd.a.length ∧ (∀ col ∈ Ja, col.length = p.hd.mu.ks.length) ∧
      (p.at a).asGN.calcF (p.at a).xyza = .ok F ∧ F.drop p.hd.mu.values.length = List.zipWith (· - ·) k p.hd.mu.ks ∧
      ∀ b, b.length = p.hd.a.length → ∃ u, (p.at a).asGN.getJPx (List.replicate p.hd.mu.values.length 0 ++ b) = .ok u ∧
        ∀ r, r < p.hd.mu.ks.length → u.getD (p.hd.mu.values.length + r) 0 = colsMul Ja b r := by
  have hsol : (p.at a).asGN.Solves ms := ⟨hnorm, by
    show (List.take _ _ ++ a).length = _
    rw [List.length_append, List.length_take, ha, hx]
    show min p.hd.mu.values.length _ + _ = p.hd.mu.values.length + p.hd.a.length
    omega, (identS_shape (α := α) p.hd.a.length).1, (identS_shape (α := α) p.hd.a.length).2⟩
  obtain ⟨N, n, hs⟩ := hsol.setup h
  obtain ⟨js, hj⟩ := hs.shaped
  obtain ⟨s1, s2, s3⟩ := hs.sizes
  have s1 : p.hd.mu.values.length = N.sum + n := s1
  have s2 : p.hd.a.length = labels.length := s2
  have s3 : p.hd.mu.ks.length = ms.mu.idx.Nm.sum := s3
  have ht' : ∀ u ∈ (p.at a).hd.mu.unc, u.unc.typeID = 1 ∨ u.unc.typeID = 2 := by
    intro u hu
    have e : p.hd.mu.unc = ms.mu.unc := hs.facts.unc
    exact ht u (by rw [← e]; exact hu)
  have hIm : p.hd.mu.idx.Im = ms.mu.idx.Im := by
    have : p.hd.mu.idx = (p.at a).asGN.hd.mu.idx := rfl
    rw [this, hs.facts.idx]
  have hjl : js.length = ms.mu.idx.Nm.length := by
    rw [hj.len]
    show p.hd.mu.idx.Im.length = _
    rw [hIm, h.pairs]
  have hxl : (p.at a).xyza.length = N.sum + n + labels.length := hs.xlen
  -- the models at this estimate
  have hser : ∀ i, ∃ R1 A1 R2 A2, ∀ (k : Nat) (pair : Nat × Nat) (j : SeriesJ α), ms.mu.idx.Im[i]? = some pair → ms.mu.idx.Nm[i]? = some k → js[i]? = some j →
      j.lo = (ms.mu.idx.Nm.take i).sum ∧ j.k = k ∧ ms.mu.unck.getD i [] = j.uK ∧ j.lo + k ≤ ms.mu.idx.Nm.sum ∧
      (p.at a).asGN.SideVal ms labels clabels (N.sum + n) n i k pair.1 (p.at a).xyza R1 A1 ∧ (p.at a).asGN.SideVal ms labels clabels (N.sum + n) n i k pair.2 (p.at a).xyza R2 A2 ∧
      ∀ st : List α × List (List α), st.1.length = ms.mu.idx.Nm.sum → (∀ col ∈ st.2, col.length = ms.mu.idx.Nm.sum) → st.2.length = labels.length →
        ∃ st', (p.at a).seriesJa m st (pair, i) = .ok st' ∧ st'.1.length = ms.mu.idx.Nm.sum ∧ (∀ col ∈ st'.2, col.length = ms.mu.idx.Nm.sum) ∧ st'.2.length = labels.length ∧
          (∀ r, r < ms.mu.idx.Nm.sum → ent st'.1 r = if j.lo ≤ r ∧ r < j.lo + k then (ent A2 (r - j.lo) - ent A1 (r - j.lo)) / ent j.uK (r - j.lo) else ent st.1 r) ∧
          ∀ c r, r < ms.mu.idx.Nm.sum → (j.lo ≤ r ∧ r < j.lo + k → ent (st.2.getD c []) r = 0) → ent (st'.2.getD c []) r = if j.lo ≤ r ∧ r < j.lo + k then
            -1 * ent j.JB1 (r - j.lo) / ent j.uK (r - j.lo) * j.dR1 (r - j.lo) (N.sum + n + c) +
              1 * ent j.JB2 (r - j.lo) / ent j.uK (r - j.lo) * j.dR2 (r - j.lo) (N.sum + n + c) else ent (st.2.getD c []) r := by
    intro i
    by_cases hi : i < ms.mu.idx.Nm.length
    · have hp := List.getElem?_eq_getElem (l := ms.mu.idx.Im) (i := i) (by rw [h.pairs]; exact hi)
      have hk := List.getElem?_eq_getElem (l := ms.mu.idx.Nm) (i := i) hi
      have hji := List.getElem?_eq_getElem (l := js) (i := i) (by omega)
      obtain ⟨q1, q2, q3, q4, R1, A1, R2, A2, q5⟩ := pc_seriesJa hs hj htl ht' hp hk hji
      refine ⟨R1, A1, R2, A2, ?_⟩
      intro k pair j hp' hk' hj'
      rw [hp] at hp'; cases hp'
      rw [hk] at hk'; cases hk'
      rw [hji] at hj'; cases hj'
      exact ⟨q1, q2, q3, q4, q5⟩
    · refine ⟨[], [], [], [], ?_⟩
      intro k pair j _ hk' _
      exact absurd (List.getElem?_eq_some_iff.1 hk').1 hi
  choose R1 A1 R2 A2 hall using hser
  obtain ⟨st, f1, f2, f3, f4, f5, f6⟩ := fold_Ja (f := (p.at a).seriesJa m) (l := p.hd.mu.idx.Im) (Nm := ms.mu.idx.Nm) (by rw [hIm, h.pairs])
    (V := fun i q => (ent (A2 i) q - ent (A1 i) q) / ent (ms.mu.unck.getD i []) q)
    (W := fun i c q => -1 * ent (js.getD i ⟨0, 0, [], [], [], fun _ _ => 0, fun _ _ => 0⟩).JB1 q / ent (ms.mu.unck.getD i []) q *
        (js.getD i ⟨0, 0, [], [], [], fun _ _ => 0, fun _ _ => 0⟩).dR1 q (N.sum + n + c) +
      1 * ent (js.getD i ⟨0, 0, [], [], [], fun _ _ => 0, fun _ _ => 0⟩).JB2 q / ent (ms.mu.unck.getD i []) q *
        (js.getD i ⟨0, 0, [], [], [], fun _ _ => 0, fun _ _ => 0⟩).dR2 q (N.sum + n + c)) (M := ms.mu.idx.Nm.sum) (L := labels.length) (by
      intro i k pair hp hk st g1 g2 g3
      rw [hIm] at hp
      have hi := (List.getElem?_eq_some_iff.1 hk).1
      have hij : i < js.length := by omega
      obtain ⟨q1, q2, q3, q4, _, _, q7⟩ := hall i k pair _ hp hk (List.getElem?_eq_getElem hij)
      have hgd : js.getD i ⟨0, 0, [], [], [], fun _ _ => 0, fun _ _ => 0⟩ = js[i] := by simp [List.getD, hij]
      rw [hgd, q3, ← q1]
      exact q7 st g1 g2 g3)
  have hvar : pyLast p.hd.mu.idx.idx = .ok p.hd.mu.values.length := by
    have : pyLast (p.at a).asGN.hd.mu.idx.idx = .ok (N.sum + n) := hs.var_eq
    rw [s1]; exact this
  have hcov : pyLast p.hd.mu.idx.n_cov = .ok m := by
    have := h.covariates
    rw [List.getLast?_eq_getElem?] at this
    have hidx : p.hd.mu.idx = (p.at a).asGN.hd.mu.idx := rfl
    unfold pyLast
    rw [hidx, hs.facts.idx]
    exact pyGet_some this
  have hmu : pyLast p.hd.mu.idx.cNm = .ok ms.mu.idx.Nm.sum := hs.mu_eq
  have hcalc : p.calcFJ a = .ok st := by
    unfold PC.calcFJ
    rw [hmu]
    simp only [hcov, PC.setParams_eq hvar hx ha, bind, Except.bind]
    have : (p.at a).hd = p.hd := rfl
    rw [this, s2]
    exact f1
  have hF := calcF_eq hs hxl (y1 := R1) (y2 := R2) (a1 := A1) (a2 := A2) (by
    intro i k pair hp hk
    have hi := (List.getElem?_eq_some_iff.1 hk).1
    obtain ⟨_, _, _, _, v1, v2, _⟩ := hall i k pair _ hp hk (List.getElem?_eq_getElem (l := js) (i := i) (by omega))
    exact ⟨v1, v2⟩)
  refine ⟨st.1, st.2, _, hcalc, by rw [f2, s3], by rw [f4, s2], fun col hc => by rw [f3 col hc, s3], hF, ?_, ?_⟩
  · apply List.ext_getElem
    · simp [s1, s3, f2]
    · intro r h1 h2
      have hr : r < ms.mu.idx.Nm.sum := by simpa [s1] using h1
      rw [List.getElem_drop, List.getElem_zipWith]
      simp only [vector, List.getElem_map, List.getElem_range, s1]
      rw [if_neg (by omega)]
      have e1 : st.1[r]'(by omega) = ent st.1 r := by simp [ent, List.getD, show r < st.1.length by omega]
      have e2 : p.hd.mu.ks[r]'(by omega) = ent p.hd.mu.ks r := by simp [ent, List.getD, show r < p.hd.mu.ks.length by omega]
      rw [e1, e2, f5 r hr]
      simp only [Nat.add_sub_cancel_left]
      rfl
  · intro b hb
    have hbl : (List.replicate p.hd.mu.values.length (0 : α) ++ b).length = N.sum + n + labels.length := by simp [hb, s1, s2]
    refine ⟨_, prod_fwd_mat hj hbl, fun r hr => ?_⟩
    rw [s3] at hr
    rw [s1]
    refine (ent_vector (by simp only; omega)).trans ?_
    rw [colsMul_eq (n := labels.length) f4 (by rw [hb, s2]), sum_split, Finset.sum_eq_zero, zero_add]
    · refine sum_congr rfl fun c hc => ?_
      have hc' := Finset.mem_range.1 hc
      have e0 : (p.at a).asGN = ({ (p.at a).asGN with S := identS labels.length } : GN α δ) := by
        unfold PC.asGN identS
        have : (p.at a).hd = p.hd := rfl
        rw [this, s2]
      have e1 : ent (List.replicate (N.sum + n) (0 : α) ++ b) (N.sum + n + c) = ent b c := by
        simp [ent, List.getD, List.getElem?_append]
      rw [e0, e1, prodM_ident (by omega), f6 c r hr]
      congr 1
      unfold jacM
      rw [if_neg (by omega), zero_add, list_sum_eq_range js ⟨0, 0, [], [], [], fun _ _ => 0, fun _ _ => 0⟩, hjl]
      refine sum_congr rfl fun i hi => ?_
      have hi' := Finset.mem_range.1 hi
      have hij : i < js.length := by omega
      obtain ⟨q1, q2, q3, q4, _, _, _⟩ := hall i _ _ _ (List.getElem?_eq_getElem (by rw [h.pairs]; exact hi')) (List.getElem?_eq_getElem hi') (List.getElem?_eq_getElem hij)
      have hgd : js.getD i ⟨0, 0, [], [], [], fun _ _ => 0, fun _ _ => 0⟩ = js[i] := by simp [List.getD, hij]
      have hnd : ms.mu.idx.Nm.getD i 0 = ms.mu.idx.Nm[i] := by simp [List.getD, hi']
      rw [hgd, hnd, q3, ← q1, ← q2]
      show js[i].mat (N.sum + n) (N.sum + n + r) (N.sum + n + c) = _
      unfold SeriesJ.mat covM
      have hq : N.sum + n + r - (N.sum + n + js[i].lo) = r - js[i].lo := by omega
      by_cases hw : js[i].lo ≤ r ∧ r < js[i].lo + js[i].k
      · rw [if_pos (by omega), if_pos (by omega), if_pos hw, hq]
      · rw [if_neg (by omega), if_neg (by omega), if_neg hw, add_zero]
    · intro d hd
      have hd' := Finset.mem_range.1 hd
      have : ent (List.replicate (N.sum + n) (0 : α) ++ b) d = 0 := by
        simp [ent, List.getD, List.getElem?_append, List.getElem?_replicate, hd']
      rw [this, mul_zero]

end
section
variable {ms : Evaluable ℝ δ} {labels clabels : List String} {m : Nat} {p : PC ℝ δ}

theorem GN.Smooth.timeless {g : GN ℝ δ} (h : ms.SolverReady labels clabels m) (hs : g.Smooth ms labels clabels) : ms.IgnoresTimes labels clabels := by
  intro i s q pair name f hp hsd hname hq hf
  have hi : i < ms.mu.idx.Nm.length := by rw [← h.pairs]; exact (List.getElem?_eq_some_iff.1 hp).1
  obtain ⟨h1, h2⟩ := hs i _ pair hp (List.getElem?_eq_getElem hi)
  have hside : g.SmoothSide ms labels clabels (i + 1) ms.mu.idx.Nm[i] s := by rcases hsd with rfl | rfl <;> assumption
  obtain ⟨name', q', f', B, X, b, b', e1, e2, e3, e4, e5, e6, e7⟩ := hside
  rw [hname] at e1; cases e1
  rw [hq] at e2; cases e2
  rw [hf] at e3; cases e3
  intro X a xt al t k hX hc ha
  rcases e7 with ⟨φ, dφ, hpw, _⟩ | ⟨hr, _⟩
  · rw [hpw X a xt al t k hX hc ha, hpw X a none none none k hX hc ha]
  · rw [hr X a xt al t hX, hr X a none none none hX]

/-- **C59**, derivative: where the models are smooth with the derivatives they declare, the residuals are defined along every line through the estimate `a`, and
the Jacobian times the direction is their derivative. -/
theorem C59_derivative (h : ms.SolverReady labels clabels m) (hnorm : ms.normalise = .ok p.hd) (hx : p.xyza.length = p.hd.mu.values.length + p.hd.a.length)
    (ht : ∀ u ∈ ms.mu.unc, u.unc.typeID = 1 ∨ u.unc.typeID = 2) (a b : List ℝ) (ha : a.length = p.hd.a.length) (hb : b.length = p.hd.a.length)
    (hsm : (p.at a).asGN.Smooth ms labels clabels) :
    ∃ k Ja, p.calcFJ a = .ok (k, Ja) ∧ ∃ K : ℝ → List ℝ, (∀ t, ∃ J, p.calcFJ (along a b t) = .ok (K t, J)) ∧
      ∀ r, r < p.hd.mu.ks.length → HasDerivAt (fun t => (K t).getD r 0) (colsMul Ja b r) 0 := by
  have htl := GN.Smooth.timeless h hsm
  obtain ⟨k, Ja, F, c1, c2, c3, c4, c5, c6, c7⟩ := C59_residuals h hnorm hx ht htl a ha
  obtain ⟨u, u1, u2⟩ := c7 b hb
  have hsol : (p.at a).asGN.Solves ms := ⟨hnorm, by
    show (List.take _ _ ++ a).length = _
    rw [List.length_append, List.length_take, ha, hx]
    show min p.hd.mu.values.length _ + _ = p.hd.mu.values.length + p.hd.a.length
    omega, (identS_shape (α := ℝ) p.hd.a.length).1, (identS_shape (α := ℝ) p.hd.a.length).2⟩
  obtain ⟨w, u', d1, d2, d3, d4, G, d5, d6⟩ := C30_jacobian h hsol hsm (List.replicate p.hd.mu.values.length 0 ++ b) (by
    simp only [List.length_append, List.length_replicate, hb]; rfl)
  rw [d2] at u1
  obtain rfl := Except.ok.inj u1
  have hw : w = List.replicate p.hd.mu.values.length 0 ++ b := by
    obtain ⟨N, n, hs⟩ := hsol.setup h
    obtain ⟨s1, s2, s3⟩ := hs.sizes
    have s1 : p.hd.mu.values.length = N.sum + n := s1
    unfold GN.calcPx at d1
    rw [hs.var_eq] at d1
    have e1 : (p.at a).asGN.hd.a.length = b.length := hb.symm
    simp only [bind, Except.bind, Bool.false_eq_true, if_false, e1, ← s1] at d1
    have e2 : slice (List.replicate p.hd.mu.values.length 0 ++ b) p.hd.mu.values.length (p.hd.mu.values.length + b.length) = b := by simp [slice]
    have e3 : slice (List.replicate p.hd.mu.values.length 0 ++ b) 0 p.hd.mu.values.length = List.replicate p.hd.mu.values.length 0 := by simp [slice]
    have e4 : matVec (p.at a).asGN.S b = .ok b := by
      rw [matVec_eq (n := b.length) (by rw [hb]; exact (identS_shape (α := ℝ) p.hd.a.length).2) rfl]
      have hl : (p.at a).asGN.S.length = b.length := by rw [hb]; exact (identS_shape (α := ℝ) p.hd.a.length).1
      rw [hl]
      congr 1
      apply List.ext_getElem
      · simp
      · intro r h1 h2
        simp only [vector, List.getElem_map, List.getElem_range]
        rw [Finset.sum_eq_single r]
        · have : ent ((p.at a).asGN.S.getD r []) r = 1 := by
            simp [PC.asGN, PC.at, ent, List.getD, show r < p.hd.a.length by omega]
          rw [this, one_mul]; simp [ent, List.getD, h2]
        · intro c hc hne
          have hc' := Finset.mem_range.1 hc
          have : ent ((p.at a).asGN.S.getD r []) c = 0 := by
            simp [PC.asGN, PC.at, ent, List.getD, show r < p.hd.a.length by omega, show c < p.hd.a.length by omega, Ne.symm hne]
          rw [this, zero_mul]
        · intro hn; exact absurd (Finset.mem_range.2 h2) hn
    rw [e2, e3, e4] at d1
    exact (pure_ok.1 d1).symm
  have hline : ∀ t, along (p.at a).asGN.xyza w t = (p.at (along a b t)).xyza := by
    intro t
    rw [hw]
    show along (p.xyza.take p.hd.mu.values.length ++ a) _ t = p.xyza.take p.hd.mu.values.length ++ along a b t
    unfold along
    rw [List.zipWith_append (by simp [hx])]
    congr 1
    apply List.ext_getElem
    · simp [hx]
    · intro i h1 h2; simp
  have hK : ∀ t, ∃ kt J, p.calcFJ (along a b t) = .ok (kt, J) ∧ kt.length = p.hd.mu.ks.length ∧ (G t).drop p.hd.mu.values.length = List.zipWith (· - ·) kt p.hd.mu.ks := by
    intro t
    obtain ⟨kt, Jt, Ft, e1, e2, e3, e4, e5, e6, e7⟩ := C59_residuals h hnorm hx ht htl (along a b t) (by unfold along; simp [ha, hb])
    have hg := (d5 t).1
    rw [hline t] at hg
    have heq : (p.at (along a b t)).asGN.calcF (p.at (along a b t)).xyza = (p.at a).asGN.calcF (p.at (along a b t)).xyza := rfl
    rw [heq, hg] at e5
    have := Except.ok.inj e5
    exact ⟨kt, Jt, e1, e2, by rw [this]; exact e6⟩
  choose K J hK1 hK2 hK3 using hK
  refine ⟨k, Ja, c1, K, fun t => ⟨J t, hK1 t⟩, fun r hr => ?_⟩
  rw [← u2 r hr]
  have hlen : p.hd.mu.values.length + r < u'.length := by
    rw [d4]
    show p.hd.mu.values.length + r < p.hd.mu.values.length + p.hd.mu.ks.length
    omega
  have hd := (d6 (p.hd.mu.values.length + r) hlen).add_const (p.hd.mu.ks.getD r 0)
  refine hd.congr_of_eventuallyEq (Filter.Eventually.of_forall fun t => ?_)
  have e1 : (G t).getD (p.hd.mu.values.length + r) 0 = ((G t).drop p.hd.mu.values.length).getD r 0 := by
    simp [List.getD, List.getElem?_drop]
  show (K t).getD r 0 = (G t).getD (p.hd.mu.values.length + r) 0 + _
  rw [e1, hK3 t]
  have hr2 : r < (K t).length := by rw [hK2 t]; exact hr
  simp [List.getD, hr2, hr]

end

end Verif
