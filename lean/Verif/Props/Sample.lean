import Verif.Lemmas.Sample
import Verif.Lemmas.Layout
import Mathlib.Tactic.Positivity
import Mathlib.Tactic.Linarith
import Mathlib.Tactic.FieldSimp
import Mathlib.Tactic.NormNum
import Mathlib.Analysis.Real.Sqrt
import Mathlib.Algebra.BigOperators.Ring.List
import Mathlib.Algebra.Order.Field.Basic
/-
Properties C16-C22: sampling to independent match-ups.
-/
set_option autoImplicit false
namespace Verif
variable {α δ : Type}

/-! ### Specification -/

/-- Entry `k` of `l'` is entry `p` of `l`. -/
def AtSame {β : Type} (l l' : List β) (p k : Nat) : Prop := ∃ v, l[p]? = some v ∧ l'[k]? = some v

/-- The same for optional arrays: absent stays absent. -/
def AtSameOpt {β : Type} (l l' : Option (List β)) (p k : Nat) : Prop :=
  (l = none ∧ l' = none) ∨ ∃ a a', l = some a ∧ l' = some a' ∧ AtSame a a' p k

/-- `r` contains, for every series `n`, the match-ups of `mu` at the positions `S n`, in that order, in every array. -/
structure Aligned (mu : MatchUp α δ) (r : SampledMatchUp α δ) (S : Nat → List Nat) : Prop where
  block : ∀ (b n k p : Nat), mu.idx.n_mu[b]? = some n → (S n)[k]? = some p → ∃ lo lo' M,
    mu.idx.idx[b]? = some lo ∧ r.idx.idx[b]? = some lo' ∧ mu.idx.Nm[n - 1]? = some M ∧ p < M ∧ AtSame mu.values r.values (lo + p) (lo' + k)
  blockUnc : ∀ (b n k p : Nat) (ub : UncBlock α) (uR : List α), mu.idx.n_mu[b]? = some n → (S n)[k]? = some p →
    mu.unc[b]? = some ub → (ub.unc = .independent uR ∨ ∃ uS, ub.unc = .systematic uR uS) → ∃ u', r.unc[b]? = some u' ∧ AtSame uR u' p k
  series : ∀ (i k p : Nat), i < mu.idx.Nm.length → (S (i + 1))[k]? = some p → ∃ lo lo' u u' t1 t2,
    mu.idx.cNm[i]? = some lo ∧ r.idx.cNm[i]? = some lo' ∧
    AtSame mu.ks r.ks (lo + p) (lo' + k) ∧
    mu.unck[i]? = some u ∧ r.unck[i]? = some u' ∧ AtSame u u' p k ∧
    mu.time1 = some t1 ∧ AtSame t1 r.time1 (lo + p) (lo' + k) ∧ mu.time2 = some t2 ∧ AtSame t2 r.time2 (lo + p) (lo' + k) ∧
    AtSameOpt mu.across_track_index1 r.across_track_index1 (lo + p) (lo' + k) ∧
    AtSameOpt mu.across_track_index2 r.across_track_index2 (lo + p) (lo' + k) ∧
    AtSameOpt mu.along_track_index1 r.along_track_index1 (lo + p) (lo' + k) ∧
    AtSameOpt mu.along_track_index2 r.along_track_index2 (lo + p) (lo' + k)

/-- The tables of `r` describe samples of the sizes of `S`; the tables of names and numbers are those of `mu`. -/
structure SampleTables (mu : MatchUp α δ) (r : SampledMatchUp α δ) (S : Nat → List Nat) : Prop where
  N_var : r.idx.N_var = mu.idx.n_mu.map fun n => (S n).length
  Nm : r.idx.Nm = (List.range mu.idx.Nm.length).map fun i => (S (i + 1)).length
  bounds : r.idx.idx = prefixSums r.idx.N_var
  series : r.idx.cNm = prefixSums r.idx.Nm
  same : r.idx.n_mu = mu.idx.n_mu ∧ r.idx.n_sensor = mu.idx.n_sensor ∧ r.idx.n_cov = mu.idx.n_cov ∧ r.idx.Im = mu.idx.Im ∧
    r.idx.sensors = mu.idx.sensors ∧ r.idx.sensor_ms = mu.idx.sensor_ms
  values : r.values.length = r.idx.N_var.sum
  unc : r.unc.map List.length = r.idx.N_var
  ks : r.ks.length = r.idx.Nm.sum
  unck : r.unck.map List.length = r.idx.Nm
  times : r.time1.length = r.idx.Nm.sum ∧ r.time2.length = r.idx.Nm.sum

/-- Everything a successful sampling run established: there are sample positions `S n`, one list per series, each the result of the
per-series selection. -/
theorem sample2ind_spec [Zero α] {rnd : List Nat → Nat → List Nat} {rms : List α → Nat → α} {z : δ} {mu : MatchUp α δ} {sf : ℚ}
    {nmax : Nat} {r : SampledMatchUp α δ} (hwf : mu.WF) (h : sample2ind rnd rms z mu sf nmax = .ok r) :
    ∃ S : Nat → List Nat, Aligned mu r S ∧ SampleTables mu r S ∧
      (∀ n, 1 ≤ n → n ≤ mu.idx.Nm.length → seriesSample rnd mu (samplingFactor mu.idx.Nm.sum sf nmax) n = .ok (S n)) ∧
      (∀ (b n : Nat) (ub : UncBlock α), mu.idx.n_mu[b]? = some n → mu.unc[b]? = some ub → ∃ u', r.unc[b]? = some u' ∧
        sampledUnc rms mu ub.unc (S n) = .ok u') := by
  unfold sample2ind at h
  obtain ⟨total, htot, h⟩ := bind_ok.1 h
  have htotal : total = mu.idx.Nm.sum := by
    rw [hwf.idx.series, prefixSums_length, Nat.add_sub_cancel, pyGet_prefixSums _ (Nat.le_refl _)] at htot
    cases htot; simp
  subst htotal
  set f := samplingFactor mu.idx.Nm.sum sf nmax with hf
  obtain ⟨s, hs, h⟩ := bind_ok.1 h
  obtain ⟨bS, hbS, h⟩ := bind_ok.1 h
  obtain ⟨sS, hsS, h⟩ := bind_ok.1 h
  obtain ⟨values, hvalues, h⟩ := bind_ok.1 h
  obtain ⟨unc, hunc, h⟩ := bind_ok.1 h
  obtain ⟨ks, hks, h⟩ := bind_ok.1 h
  obtain ⟨unck, hunck, h⟩ := bind_ok.1 h
  obtain ⟨a1, ha1, h⟩ := bind_ok.1 h
  obtain ⟨a2, ha2, h⟩ := bind_ok.1 h
  obtain ⟨l1, hl1, h⟩ := bind_ok.1 h
  obtain ⟨l2, hl2, h⟩ := bind_ok.1 h
  obtain ⟨t1, ht1, h⟩ := bind_ok.1 h
  obtain ⟨t2, ht2, h⟩ := bind_ok.1 h
  rw [pure_ok] at h
  subst h
  let S : Nat → List Nat := fun n => match seriesSample rnd mu f n with
    | .ok t => t
    | .error _ => []
  have hS : ∀ {n t}, seriesSample rnd mu f n = .ok t → S n = t := by
    intro n t h; simp only [S, h]
  obtain ⟨hsl, hsg⟩ := samplingIdxs_get hwf.idx hs
  have hukl : mu.unck.length = mu.idx.Nm.length := by rw [← hwf.unck]; simp
  -- block samples
  have hbSe : bS = mu.idx.n_mu.map S := by
    obtain ⟨hl, hg⟩ := mapM_ok_get hbS
    apply List.ext_getElem?
    intro b
    rw [List.getElem?_map]
    cases hb : mu.idx.n_mu[b]? with
    | none =>
      rw [List.getElem?_eq_none_iff] at hb
      rw [List.getElem?_eq_none_iff.2 (by omega)]; rfl
    | some n =>
      obtain ⟨t, h1, h2⟩ := hg b n hb
      rw [h2]; simp only [Option.map_some]
      rw [hS (lookupSample_ok hs h1)]
  have hsSe : sS = (List.range mu.idx.Nm.length).map fun i => S (i + 1) := by
    obtain ⟨hl, hg⟩ := mapM_ok_get hsS
    rw [hukl, List.length_range] at hl
    apply List.ext_getElem?
    intro b
    rw [List.getElem?_map]
    by_cases hb : b < mu.idx.Nm.length
    · obtain ⟨t, h1, h2⟩ := hg b b (by rw [hukl]; simp [hb])
      rw [h2]; simp only [List.getElem?_range hb, Option.map_some]
      rw [hS (lookupSample_ok hs h1)]
    · rw [List.getElem?_eq_none_iff.2 (by omega)]; simp; omega
  have hNm : (s.map fun e => e.2.length) = sS.map List.length := by
    rw [hsSe]
    apply List.ext_getElem?
    intro b
    simp only [List.getElem?_map]
    by_cases hb : b < mu.idx.Nm.length
    · obtain ⟨t, h1, h2⟩ := hsg b hb
      rw [h2]; simp only [List.getElem?_range hb, Option.map_some]
      rw [hS h1]
    · rw [List.getElem?_eq_none_iff.2 (by omega)]; simp; omega
  have hser : ∀ i, i < mu.idx.Nm.length → sS[i]? = some (S (i + 1)) := by
    intro i hi; rw [hsSe]; simp [hi]
  -- arrays
  obtain ⟨hvl, hvg⟩ := sampleBlocks_ok hvalues rfl (by simp)
  obtain ⟨hkl, hkg⟩ := sampleBlocks_ok hks (by simp only [hNm]) (by simp [hNm])
  have htime : ∀ {o : Option (List δ)} {t : List δ}, (match o with
      | some l => sampleBlocks mu.idx.cNm (prefixSums (s.map fun e => e.2.length)) sS l (List.replicate (s.map fun e => e.2.length).sum z)
      | none => .error .typeError : Py (List δ)) = .ok t → t.length = (sS.map List.length).sum ∧
        ∃ l, o = some l ∧ ∀ (i k p : Nat), i < mu.idx.Nm.length → (S (i + 1))[k]? = some p →
          ∃ lo lo', mu.idx.cNm[i]? = some lo ∧ (prefixSums (s.map fun e => e.2.length))[i]? = some lo' ∧ AtSame l t (lo + p) (lo' + k) := by
    intro o t ho
    cases o with
    | none => cases ho
    | some l =>
      obtain ⟨hl, hg⟩ := sampleBlocks_ok ho (by simp only [hNm]) (by simp [hNm])
      refine ⟨hl, l, rfl, ?_⟩
      intro i k p hi hp
      obtain ⟨lo, hi', lo', x, e1, e2, e3, e4, e5, e6⟩ := hg i _ k p (hser i hi) hp
      exact ⟨lo, lo', e1, e4, x, e5, e6⟩
  have hopt : ∀ {o t : Option (List α)}, (match o with
      | some l => do
        let r ← sampleBlocks mu.idx.cNm (prefixSums (s.map fun e => e.2.length)) sS l (List.replicate (s.map fun e => e.2.length).sum 0)
        pure (some r)
      | none => pure none : Py (Option (List α))) = .ok t →
        ∀ (i k p : Nat), i < mu.idx.Nm.length → (S (i + 1))[k]? = some p →
          ∃ lo lo', mu.idx.cNm[i]? = some lo ∧ (prefixSums (s.map fun e => e.2.length))[i]? = some lo' ∧ AtSameOpt o t (lo + p) (lo' + k) := by
    intro o t ho i k p hi hp
    cases o with
    | none =>
      rw [pure_ok] at ho
      obtain ⟨lo, hi', lo', x, e1, e2, e3, e4, e5, e6⟩ := hkg i _ k p (hser i hi) hp
      exact ⟨lo, lo', e1, e4, .inl ⟨rfl, ho.symm⟩⟩
    | some l =>
      obtain ⟨r, hr, ho⟩ := bind_ok.1 ho
      rw [pure_ok] at ho
      obtain ⟨hl, hg⟩ := sampleBlocks_ok hr (by simp only [hNm]) (by simp [hNm])
      obtain ⟨lo, hi', lo', x, e1, e2, e3, e4, e5, e6⟩ := hg i _ k p (hser i hi) hp
      exact ⟨lo, lo', e1, e4, .inr ⟨l, r, rfl, ho.symm, x, e5, e6⟩⟩
  have hU : ∀ (b n : Nat) (ub : UncBlock α), mu.idx.n_mu[b]? = some n → mu.unc[b]? = some ub → ∃ u', unc[b]? = some u' ∧
        sampledUnc rms mu ub.unc (S n) = .ok u' := by
    intro b n ub hb hub
    obtain ⟨_, hg⟩ := mapM_ok_get hunc
    obtain ⟨u', h1, h2⟩ := hg b (ub, S n) (by
      rw [List.getElem?_zip_eq_some]; exact ⟨hub, by rw [hbSe]; simp [hb]⟩)
    exact ⟨u', h2, h1⟩
  have hUlen : ∀ (u : Unc α) (p : List Nat) (u' : List α), sampledUnc rms mu u p = .ok u' → u'.length = p.length := by
    intro u p u' h
    unfold sampledUnc at h
    split at h
    · exact (takeAt_ok h).1
    · exact (takeAt_ok h).1
    all_goals
      obtain ⟨_, _, h⟩ := bind_ok.1 h
      obtain ⟨_, _, h⟩ := bind_ok.1 h
      split at h
      · exact (mapM_ok_get h).1
      · cases h
  refine ⟨S, ⟨?_, ?_, ?_⟩, ⟨?_, ?_, rfl, rfl, ⟨rfl, rfl, rfl, rfl, rfl, rfl⟩, hvl, ?_, ?_, ?_, ?_⟩, ?_, hU⟩
  · -- blocks
    intro b n k p hb hp
    obtain ⟨lo, hi, lo', x, e1, e2, e3, e4, e5, e6⟩ := hvg b (S n) k p (by rw [hbSe]; simp [hb]) hp
    obtain ⟨_, M, hM, hN⟩ := hwf.idx.block b n hb
    refine ⟨lo, lo', M, e1, e4, hM, ?_, x, e5, e6⟩
    have hbl := (List.getElem?_eq_some_iff.1 hN).1
    rw [hwf.idx.bounds, prefixSums_getElem?_of_le _ (by omega)] at e1 e2
    rw [take_succ_sum _ hN] at e2
    cases e1; cases e2
    omega
  · intro b n k p ub uR hb hp hub hcase
    obtain ⟨u', h1, h2⟩ := hU b n ub hb hub
    refine ⟨u', h1, ?_⟩
    have ht : takeAt uR (S n) = .ok u' := by
      rcases hcase with hc | ⟨uS, hc⟩ <;> (rw [hc] at h2; exact h2)
    obtain ⟨x, hx, hx'⟩ := (takeAt_ok ht).2 k p hp
    exact ⟨x, hx, hx'⟩
  · intro i k p hi hp
    obtain ⟨lo, hi', lo', x, e1, e2, e3, e4, e5, e6⟩ := hkg i _ k p (hser i hi) hp
    obtain ⟨_, L1, hL1, hT1⟩ := htime ht1
    obtain ⟨_, L2, hL2, hT2⟩ := htime ht2
    have hu : i < mu.unck.length := by omega
    obtain ⟨_, hg⟩ := mapM_ok_get hunck
    obtain ⟨u', q1, q2⟩ := hg i (mu.unck[i], S (i + 1)) (by
      rw [List.getElem?_zip_eq_some]; exact ⟨List.getElem?_eq_getElem hu, hser i hi⟩)
    obtain ⟨y, hy, hy'⟩ := (takeAt_ok q1).2 k p hp
    refine ⟨lo, lo', _, u', L1, L2, e1, e4, ⟨x, e5, e6⟩, List.getElem?_eq_getElem hu, q2, ⟨y, hy, hy'⟩, hL1, ?_, hL2, ?_, ?_, ?_, ?_, ?_⟩
    · obtain ⟨a, b, c1, c2, c3⟩ := hT1 i k p hi hp
      rw [e1] at c1; simp only [e4, Option.some.injEq] at c1 c2; subst c1; subst c2; exact c3
    · obtain ⟨a, b, c1, c2, c3⟩ := hT2 i k p hi hp
      rw [e1] at c1; simp only [e4, Option.some.injEq] at c1 c2; subst c1; subst c2; exact c3
    · obtain ⟨a, b, c1, c2, c3⟩ := hopt ha1 i k p hi hp
      rw [e1] at c1; simp only [e4, Option.some.injEq] at c1 c2; subst c1; subst c2; exact c3
    · obtain ⟨a, b, c1, c2, c3⟩ := hopt ha2 i k p hi hp
      rw [e1] at c1; simp only [e4, Option.some.injEq] at c1 c2; subst c1; subst c2; exact c3
    · obtain ⟨a, b, c1, c2, c3⟩ := hopt hl1 i k p hi hp
      rw [e1] at c1; simp only [e4, Option.some.injEq] at c1 c2; subst c1; subst c2; exact c3
    · obtain ⟨a, b, c1, c2, c3⟩ := hopt hl2 i k p hi hp
      rw [e1] at c1; simp only [e4, Option.some.injEq] at c1 c2; subst c1; subst c2; exact c3
  · simp only [hbSe, List.map_map, Function.comp_def]
  · simp only [hNm, hsSe, List.map_map, Function.comp_def]
  · obtain ⟨hl, hg⟩ := mapM_ok_get hunc
    simp only [hbSe, List.map_map, Function.comp_def]
    apply List.ext_getElem?
    intro b
    rw [List.getElem?_map, List.getElem?_map]
    cases hb : mu.idx.n_mu[b]? with
    | none =>
      have hbl := List.getElem?_eq_none_iff.1 hb
      rw [List.getElem?_eq_none_iff.2 (by rw [hl, hbSe]; simp; omega)]; rfl
    | some n =>
      have hbl : b < mu.unc.length := by rw [hwf.unc]; exact (List.getElem?_eq_some_iff.1 hb).1
      obtain ⟨u', h1, h2⟩ := hU b n _ hb (List.getElem?_eq_getElem hbl)
      rw [h1]; simp only [Option.map_some]
      rw [hUlen _ _ _ h2]
  · simp only [hNm]; exact hkl
  · obtain ⟨hl, hg⟩ := mapM_ok_get hunck
    simp only [hNm]
    apply List.ext_getElem?
    intro b
    rw [List.getElem?_map, List.getElem?_map]
    by_cases hb : b < mu.idx.Nm.length
    · have hu : b < mu.unck.length := by omega
      obtain ⟨u', q1, q2⟩ := hg b (mu.unck[b], S (b + 1)) (by
        rw [List.getElem?_zip_eq_some]; exact ⟨List.getElem?_eq_getElem hu, hser b hb⟩)
      rw [q2, hser b hb]
      simp [(takeAt_ok q1).1]
    · have : sS.length = mu.idx.Nm.length := by rw [hsSe]; simp
      rw [List.getElem?_eq_none_iff.2 (by rw [hl]; simp; omega), List.getElem?_eq_none_iff.2 (by omega)]; rfl
  · simp only [hNm]; exact ⟨(htime ht1).1, (htime ht2).1⟩
  · intro n h1 h2
    obtain ⟨t, ht, _⟩ := hsg (n - 1) (by omega)
    rw [show n - 1 + 1 = n by omega] at ht
    rw [hS ht]; exact ht

/-! ### The properties -/

variable [Zero α] (rnd : List Nat → Nat → List Nat) (rms : List α → Nat → α) (z : δ) (mu : MatchUp α δ) (sf : ℚ) (nmax : Nat)
  (r : SampledMatchUp α δ)

omit [Zero α] in
theorem subperm_nodup {β : Type} {l l' : List β} (h : l.Subperm l') (hn : l'.Nodup) : l.Nodup := by
  obtain ⟨m, hp, hs⟩ := h
  exact hp.nodup_iff.1 (hs.nodup hn)

/-- All W matrices of series `n` have one row per match-up of that series. -/
def MatchUp.WRows (mu : MatchUp α δ) : Prop :=
  ∀ n M w, 1 ≤ n → mu.idx.Nm[n - 1]? = some M → mu.SeriesW n w → w.indptr.length = M + 1

omit [Zero α] in
theorem series_size {mu : MatchUp α δ} (hwf : mu.WF) {n M M' : Nat} (hmem : n ∈ mu.idx.n_mu) (hM : mu.idx.Nm[n - 1]? = some M)
    (hN : mu.idx.N_var[mu.idx.n_mu.idxOf n]? = some M') : M' = M := by
  have hb : mu.idx.n_mu[mu.idx.n_mu.idxOf n]? = some n := by
    rw [List.getElem?_eq_getElem (List.idxOf_lt_length_of_mem hmem)]; simp
  obtain ⟨_, M2, h1, h2⟩ := hwf.idx.block _ _ hb
  rw [hM] at h1; rw [hN] at h2
  cases h1; cases h2; rfl

/-- **C16, C17, C18, C19, C20 in one statement.** A successful sampling run of a well laid out match-up whose W matrices have one row per
match-up of their series has taken, in every array and for every series `n`, the match-ups at positions `S n`, in that order (C19, C20); the
positions are distinct and within the series, at most `⌊M·f⌋` of them, and in total at most `nmax` (C18); two different sampled positions
store no common column in any W matrix of the series (C16); and where the number was not cut down to the requested one, every omitted
position shares a stored column with an earlier sampled one (C17). -/
theorem sampling_correct (hr : SampleOk rnd) (hsf : 0 ≤ sf) (hwf : mu.WF) (hrows : mu.WRows)
    (h : sample2ind rnd rms z mu sf nmax = .ok r) :
    ∃ S : Nat → List Nat, Aligned mu r S ∧ SampleTables mu r S ∧ r.idx.Nm.sum ≤ nmax ∧
      ∀ n M : Nat, 1 ≤ n → mu.idx.Nm[n - 1]? = some M →
        (S n).Nodup ∧ (∀ p ∈ S n, p < M) ∧ ((S n).length : ℚ) ≤ M * sf ∧
        (∀ w, mu.SeriesW n w → ∀ p ∈ S n, ∀ q ∈ S n, p ≠ q → ∀ c, ¬ (w.Stored p c ∧ w.Stored q c)) ∧
        ((∃ w, mu.SeriesW n w) → ((S n).length < (⌊(M : ℚ) * samplingFactor mu.idx.Nm.sum sf nmax⌋).toNat ∨
            (sf = 1 ∧ mu.idx.Nm.sum ≤ nmax)) →
          ∀ p, p < M → p ∉ S n → ∃ q ∈ S n, q < p ∧ ∃ w c, mu.SeriesW n w ∧ w.Stored p c ∧ w.Stored q c) := by
  obtain ⟨S, hA, hT, hS, _⟩ := sample2ind_spec hwf h
  set f := samplingFactor mu.idx.Nm.sum sf nmax with hf
  have hf0 : 0 ≤ f := by
    rw [hf]; unfold samplingFactor; split
    · positivity
    · exact hsf
  have hfsf : f ≤ sf := by
    rw [hf]; unfold samplingFactor
    split
    · rename_i hlt
      by_cases h0 : (mu.idx.Nm.sum : ℚ) = 0
      · rw [h0]; simpa using hsf
      · rw [div_le_iff₀ (lt_of_le_of_ne (by positivity) (Ne.symm h0)), mul_comm]; exact le_of_lt hlt
    · exact le_refl _
  have hfn : (mu.idx.Nm.sum : ℚ) * f ≤ nmax := by
    rw [hf]; unfold samplingFactor
    split
    · by_cases h0 : (mu.idx.Nm.sum : ℚ) = 0
      · rw [h0]; simp
      · rw [mul_div_cancel₀ _ h0]
    · rename_i hlt; exact not_lt.1 hlt
  have hsz : ∀ n M : Nat, 1 ≤ n → mu.idx.Nm[n - 1]? = some M → ((S n).length : ℚ) ≤ M * f ∧ n ≤ mu.idx.Nm.length := by
    intro n M h1 hM
    have hlt := (List.getElem?_eq_some_iff.1 hM).1
    obtain ⟨b, M', rfl, hmem, hN, hle, _⟩ := seriesSample_spec hr (hS n h1 (by omega))
    have := series_size hwf hmem hM hN
    subst this
    refine ⟨?_, by omega⟩
    have hnn : (0 : ℚ) ≤ M' * f := by positivity
    calc ((S n).length : ℚ) ≤ ((⌊(M' : ℚ) * f⌋).toNat : ℚ) := by exact_mod_cast hle
      _ = (⌊(M' : ℚ) * f⌋ : ℚ) := by
        have : ((⌊(M' : ℚ) * f⌋).toNat : ℤ) = ⌊(M' : ℚ) * f⌋ := Int.toNat_of_nonneg (Int.floor_nonneg.2 hnn)
        exact_mod_cast congrArg (Int.cast (R := ℚ)) this
      _ ≤ M' * f := Int.floor_le _
  refine ⟨S, hA, hT, ?_, ?_⟩
  · have key : ∀ (l : List Nat) (g : Nat → Nat), (∀ (i M : Nat), l[i]? = some M → ((g i : ℕ) : ℚ) ≤ M * f) →
        ((((List.range l.length).map g).sum : ℕ) : ℚ) ≤ (l.sum : ℚ) * f := by
      intro l
      induction l with
      | nil => intro g _; simp
      | cons a l ih =>
        intro g hg
        have := ih (fun i => g (i + 1)) (fun i M h => hg (i + 1) M (by simpa using h))
        have h0 := hg 0 a (by simp)
        simp only [List.length_cons, List.range_succ_eq_map, List.map_cons, List.map_map, List.sum_cons, Nat.cast_add, Function.comp_def]
        simp only [Nat.succ_eq_add_one]
        rw [add_mul]
        linarith
    have := key mu.idx.Nm (fun i => (S (i + 1)).length) (fun i M hM => (hsz (i + 1) M (by omega) (by simpa using hM)).1)
    rw [hT.Nm]
    exact_mod_cast le_trans this hfn
  · intro n M h1 hM
    obtain ⟨hq, hle⟩ := hsz n M h1 hM
    obtain ⟨b, M', rfl, hmem, hN, hlen, hcase⟩ := seriesSample_spec hr (hS n h1 hle)
    have := series_size hwf hmem hM hN
    subst this
    have hbound : ((S n).length : ℚ) ≤ M' * sf := le_trans hq (mul_le_mul_of_nonneg_left hfsf (by positivity))
    rcases hcase with ⟨ws, st, hws, hne, hI, hsub, hmax⟩ | ⟨hno, hsub, _, _⟩
    · have hrc : rowCount ws = M' := rowCount_eq hne (fun w hw => hrows n M' w h1 hM ((hws w).1 hw))
      have hmemS : ∀ p ∈ S n, p ∈ st.2 := fun p hp => hsub.subset hp
      have hltS : ∀ p ∈ st.2, p < M' := fun p hp => hrc ▸ hI.lt p hp
      have hnd : st.2.Nodup := hI.sorted.imp (fun h => Nat.ne_of_lt h)
      have hstored : ∀ w ∈ ws, ∀ p, p < M' → ∀ c, c ∈ w.rowCols p ↔ w.Stored p c := by
        intro w hw p hp c
        exact mem_rowCols (by rw [hrows n M' w h1 hM ((hws w).1 hw)]; omega)
      refine ⟨subperm_nodup hsub hnd, fun p hp => hltS p (hmemS p hp), hbound, ?_, ?_⟩
      · rintro w hw p hp q hq hpq c ⟨hc, hc'⟩
        have hwm := (hws w).2 hw
        have hp' := hmemS p hp
        have hq' := hmemS q hq
        exact hI.indep p hp' q hq' hpq w hwm c ((hstored w hwm p (hltS p hp') c).2 hc) ((hstored w hwm q (hltS q hq') c).2 hc')
      · rintro _ hcond p hp hpn
        have hSe : S n = st.2 := by
          rcases hmax with h | ⟨h1', h2'⟩
          · exact h
          · exfalso
            rcases hcond with hc | ⟨rfl, hc⟩
            · omega
            · have hf1 : f = 1 := by
                rw [hf]; unfold samplingFactor
                rw [if_neg]
                rw [not_lt, mul_one]; exact_mod_cast hc
              rw [hf1] at h2'
              have e : (⌊(M' : ℚ) * 1⌋).toNat = M' := by simp
              rw [e] at h2'
              have : st.2.length ≤ M' := by
                have := (List.subperm_of_subset hnd (fun x hx => List.mem_range.2 (hltS x hx))).length_le
                simpa using this
              omega
        rw [hSe] at hpn ⊢
        obtain ⟨q, hq, hlt, w, hw, c, hc, hc'⟩ := hI.maximal hne p (by omega) hpn
        exact ⟨q, hq, hlt, w, c, (hws w).1 hw, (hstored w hw p hp c).1 hc, (hstored w hw q (hltS q hq) c).1 hc'⟩
    · refine ⟨subperm_nodup hsub List.nodup_range, fun p hp => by simpa using hsub.subset hp, hbound, ?_, ?_⟩
      · intro w hw; exact absurd hw (hno w)
      · rintro ⟨w, hw⟩; exact absurd hw (hno w)


/-- **C16.** Two different sampled match-ups of a series have no stored input column in common, in any W matrix of the series. -/
theorem C16_sample_independent (hr : SampleOk rnd) (hsf : 0 ≤ sf) (hwf : mu.WF) (hrows : mu.WRows)
    (h : sample2ind rnd rms z mu sf nmax = .ok r) :
    ∃ S : Nat → List Nat, Aligned mu r S ∧ SampleTables mu r S ∧ ∀ n, 1 ≤ n → n ≤ mu.idx.Nm.length →
      ∀ w, mu.SeriesW n w → ∀ p ∈ S n, ∀ q ∈ S n, p ≠ q → ∀ c, ¬ (w.Stored p c ∧ w.Stored q c) := by
  obtain ⟨S, h1, h2, _, h4⟩ := sampling_correct rnd rms z mu sf nmax r hr hsf hwf hrows h
  refine ⟨S, h1, h2, fun n hn hle => ?_⟩
  exact (h4 n _ hn (List.getElem?_eq_getElem (by omega))).2.2.2.1

/-- **C17.** In a series with W matrices whose sample was not cut down (it has fewer elements than requested, or everything was requested),
each omitted match-up shares a stored input column with an earlier sampled one. -/
theorem C17_sample_maximal (hr : SampleOk rnd) (hsf : 0 ≤ sf) (hwf : mu.WF) (hrows : mu.WRows)
    (h : sample2ind rnd rms z mu sf nmax = .ok r) :
    ∃ S : Nat → List Nat, Aligned mu r S ∧ SampleTables mu r S ∧ ∀ n M : Nat, 1 ≤ n → mu.idx.Nm[n - 1]? = some M →
      (∃ w, mu.SeriesW n w) →
      ((S n).length < (⌊(M : ℚ) * samplingFactor mu.idx.Nm.sum sf nmax⌋).toNat ∨ (sf = 1 ∧ mu.idx.Nm.sum ≤ nmax)) →
      ∀ p, p < M → p ∉ S n → ∃ q ∈ S n, q < p ∧ ∃ w c, mu.SeriesW n w ∧ w.Stored p c ∧ w.Stored q c := by
  obtain ⟨S, h1, h2, _, h4⟩ := sampling_correct rnd rms z mu sf nmax r hr hsf hwf hrows h
  exact ⟨S, h1, h2, fun n M hn hM => (h4 n M hn hM).2.2.2.2⟩

/-- **C18.** Sampled positions are distinct, lie within their series, are at most the requested fraction `sf` of it, and the total number of
sampled match-ups never exceeds `n_sample_max`. -/
theorem C18_sample_limits (hr : SampleOk rnd) (hsf : 0 ≤ sf) (hwf : mu.WF) (hrows : mu.WRows)
    (h : sample2ind rnd rms z mu sf nmax = .ok r) :
    r.ks.length ≤ nmax ∧ ∃ S : Nat → List Nat, Aligned mu r S ∧ SampleTables mu r S ∧
      ∀ n M : Nat, 1 ≤ n → mu.idx.Nm[n - 1]? = some M →
        (S n).Nodup ∧ (∀ p ∈ S n, p < M) ∧ ((S n).length : ℚ) ≤ M * sf := by
  obtain ⟨S, h1, h2, h3, h4⟩ := sampling_correct rnd rms z mu sf nmax r hr hsf hwf hrows h
  refine ⟨by rw [h2.ks]; exact h3, S, h1, h2, fun n M hn hM => ?_⟩
  obtain ⟨a, b, c, _⟩ := h4 n M hn hM
  exact ⟨a, b, c⟩

/-- **C19.** All arrays of the sampled object are taken at the same positions (this needs nothing of the random choice). -/
theorem C19_sample_aligned (hwf : mu.WF) (h : sample2ind rnd rms z mu sf nmax = .ok r) :
    ∃ S : Nat → List Nat, Aligned mu r S ∧ SampleTables mu r S := by
  obtain ⟨S, h1, h2, _⟩ := sample2ind_spec hwf h
  exact ⟨S, h1, h2⟩

/-- **C20.** The tables of the sampled object: boundaries are the running totals of the block and series sizes, every block and its uncertainty
has as many entries as its series has sampled match-ups, and the block numbering is unchanged. -/
theorem C20_sample_structure (hwf : mu.WF) (h : sample2ind rnd rms z mu sf nmax = .ok r) :
    r.idx.n_mu = mu.idx.n_mu ∧ r.idx.n_sensor = mu.idx.n_sensor ∧ r.idx.n_cov = mu.idx.n_cov ∧ r.idx.Im = mu.idx.Im ∧
    r.idx.sensors = mu.idx.sensors ∧ r.idx.WF ∧
    r.values.length = r.idx.N_var.sum ∧ r.unc.map List.length = r.idx.N_var ∧ r.ks.length = r.idx.Nm.sum ∧
    r.unck.map List.length = r.idx.Nm ∧ r.time1.length = r.idx.Nm.sum ∧ r.time2.length = r.idx.Nm.sum := by
  obtain ⟨S, h1, h2, _⟩ := sample2ind_spec hwf h
  obtain ⟨a1, a2, a3, a4, a5, _⟩ := h2.same
  refine ⟨a1, a2, a3, a4, a5, ⟨h2.bounds, h2.series, by rw [h2.N_var, a1]; simp, ?_, ?_⟩, h2.values, h2.unc, h2.ks, h2.unck, h2.times.1,
    h2.times.2⟩
  · intro b n hb
    rw [a1] at hb
    obtain ⟨hn, M, hM, _⟩ := hwf.idx.block b n hb
    refine ⟨hn, (S n).length, ?_, by rw [h2.N_var]; simp [hb]⟩
    have := (List.getElem?_eq_some_iff.1 hM).1
    rw [h2.Nm]; simp [this]
    rw [show n - 1 + 1 = n by omega]
  · intro n hn hle
    rw [a1]
    exact hwf.idx.all n hn (by rw [h2.Nm] at hle; simpa using hle)

/-- **C22 (partial).** The sampled positions of a series are strictly increasing when the series has no W matrix, or when its sample has fewer
elements than were requested, or when everything was requested. Missing: a series with W matrices whose sample was cut down at random
(see `C22_order_lost`). -/
theorem C22_sample_order_partial (hr : SampleOk rnd) (hwf : mu.WF) (h : sample2ind rnd rms z mu sf nmax = .ok r) :
    ∃ S : Nat → List Nat, Aligned mu r S ∧ SampleTables mu r S ∧ ∀ n M : Nat, 1 ≤ n → mu.idx.Nm[n - 1]? = some M →
      ((∀ w, ¬ mu.SeriesW n w) ∨ (S n).length < (⌊(M : ℚ) * samplingFactor mu.idx.Nm.sum sf nmax⌋).toNat) → (S n).Pairwise (· < ·) := by
  obtain ⟨S, hA, hT, hS, _⟩ := sample2ind_spec hwf h
  refine ⟨S, hA, hT, ?_⟩
  intro n M h1 hM hcond
  have hle := (List.getElem?_eq_some_iff.1 hM).1
  obtain ⟨b, M', rfl, hmem, hN, hlen, hcase⟩ := seriesSample_spec hr (hS n h1 (by omega))
  have := series_size hwf hmem hM hN
  subst this
  rcases hcase with ⟨ws, st, hws, hne, hI, hsub, hmax⟩ | ⟨hno, hsub, _, hsorted⟩
  · rcases hcond with hno | hlt
    · obtain ⟨w, hw⟩ := List.exists_mem_of_ne_nil ws hne
      exact absurd ((hws w).1 hw) (hno w)
    · rcases hmax with hmax | ⟨hmax, _⟩
      · rw [hmax]; exact hI.sorted
      · omega
  · have hnd : (S n).Nodup := subperm_nodup hsub List.nodup_range
    exact (hsorted.and hnd).imp (fun {a b} h => lt_of_le_of_ne h.1 h.2)

end Verif

namespace Verif.Fixture

/-- A file with four match-ups; sensor B's covariate averages pairs of input columns given by `cols`. -/
def pairFile (cols : List Nat) : Dataset Int :=
  { Fixture.file 4 (Fixture.side "A" 1 0 1)
      { Fixture.side "B" 1 50 3 with wUse := fun _ => 1, uUse := fun _ => 1 } [] with
    hasUse := true
    wNnz := [8], wVal := [1, 1, 1, 1, 1, 1, 1, 1], wCol := cols, wRow := [[0, 2, 4, 6, 8]], uCount := [8]
    uVal := [1, 2, 3, 4, 5, 6, 7, 8] }

/-- A random choice that reverses. -/
def revSample (p : List Nat) (k : Nat) : List Nat := (p.take k).reverse

theorem revSample_ok : SampleOk revSample := by
  intro p k hk
  refine ⟨by simp [revSample, hk], ?_⟩
  exact ⟨p.take k, (List.reverse_perm _).symm, List.take_sublist _ _⟩

theorem pairFile_consistent (cols : List Nat) : ConsistentFiles [pairFile cols] := by
  constructor
  · intro d hd
    simp only [List.mem_cons, List.not_mem_nil, or_false] at hd
    subst hd
    show "A" ≠ "B"; decide
  · intro d hd e he s hs t ht _
    simp only [List.mem_cons, List.not_mem_nil, or_false] at hd he hs ht
    subst hd; subst he
    rcases hs with rfl | rfl <;> rcases ht with rfl | rfl <;> rfl

/-- Evaluation of a concrete run: a Boolean test of the result. -/
theorem check_ok {β : Type} {x : Py β} (p : β → Bool)
    (h : (match x with | .ok b => p b | .error _ => false) = true) : ∃ b, x = .ok b ∧ p b = true := by
  cases x with
  | error e => cases h
  | ok b => exact ⟨b, rfl, h⟩

/-- Open one pair file and sample it. -/
def sampleRun (cols : List Nat) (sf : ℚ) : Py (MatchUp Int Int × SampledMatchUp Int Int) := do
  let mu ← openMatchUp env [pairFile cols]
  let r ← sample2ind revSample (fun us _ => us.sum) 0 mu sf 100
  pure (mu, r)

theorem sampleRun_ok {cols : List Nat} {sf : ℚ} {mr : MatchUp Int Int × SampledMatchUp Int Int} (h : sampleRun cols sf = .ok mr) :
    openMatchUp env [pairFile cols] = .ok mr.1 ∧ mr.1.WF ∧ sample2ind revSample (fun us _ => us.sum) 0 mr.1 sf 100 = .ok mr.2 := by
  obtain ⟨mu, h1, h⟩ := bind_ok.1 h
  obtain ⟨r, h2, h⟩ := bind_ok.1 h
  rw [pure_ok] at h
  subst h
  refine ⟨h1, opened_wellLaid env _ (pairFile_consistent _) ?_ _ h1, h2⟩
  intro d hd
  simp only [List.mem_cons, List.not_mem_nil, or_false] at hd
  subst hd
  left; show 1 ≤ 1; exact Nat.le_refl _

end Verif.Fixture

namespace Verif

/-- A way to see that the W matrices have one row per match-up: one series of `M`, all matrices with `M + 1` row pointers. -/
theorem WRows_of_single {α δ : Type} {mu : MatchUp α δ} {M : Nat} (h1 : mu.idx.Nm = [M])
    (h2 : mu.w_matrices.all (Option.all (fun w => w.indptr.length == M + 1)) = true) : mu.WRows := by
  rintro n M' w hn hM ⟨b, wi, ui, ub, _, _, _, hw⟩
  rw [h1] at hM
  have : M' = M := by
    have := List.mem_of_getElem? hM
    simpa using this
  subst this
  have := List.all_eq_true.1 h2 _ (List.mem_of_getElem? hw)
  simpa using this

/-- Overlapping averages: the greedy selection takes every second match-up; the hypotheses of the sampling theorems hold. -/
example : ∃ mu r, openMatchUp Fixture.env [Fixture.pairFile [0, 1, 1, 2, 2, 3, 3, 4]] = .ok mu ∧ mu.WF ∧ mu.WRows ∧
    SampleOk Fixture.revSample ∧ sample2ind Fixture.revSample (fun us _ => us.sum) 0 mu 1 100 = .ok r ∧ r.values = [0, 2, 50, 52] ∧ r.ks = [7, 9] := by
  obtain ⟨mr, h, hp⟩ := Fixture.check_ok (x := Fixture.sampleRun [0, 1, 1, 2, 2, 3, 3, 4] 1)
    (fun mr => (mr.2.values = [0, 2, 50, 52] ∧ mr.2.ks = [7, 9]) ∧ mr.1.idx.Nm = [4] ∧
      mr.1.w_matrices.all (Option.all (fun w => w.indptr.length == 4 + 1))) (by decide +kernel)
  obtain ⟨h1, h2, h3⟩ := Fixture.sampleRun_ok h
  obtain ⟨hp1, hp2, hp3⟩ := of_decide_eq_true hp
  exact ⟨mr.1, mr.2, h1, h2, WRows_of_single hp2 hp3, Fixture.revSample_ok, h3, hp1.1, hp1.2⟩

/-- **C22 fails in general.** Four match-ups with disjoint inputs, half of them requested: a random choice satisfying the contract of
`random.sample` gives a sample in which the second match-up comes before the first (all values of the file are different, so the
order can be seen in the values). -/
theorem C22_order_lost : SampleOk Fixture.revSample ∧ ∃ mu r,
    openMatchUp Fixture.env [Fixture.pairFile [0, 1, 2, 3, 4, 5, 6, 7]] = .ok mu ∧ mu.WF ∧ mu.values = [0, 1, 2, 3, 50, 51, 52, 53] ∧
    sample2ind Fixture.revSample (fun us _ => us.sum) 0 mu (1/2) 100 = .ok r ∧ r.values = [1, 0, 51, 50] := by
  refine ⟨Fixture.revSample_ok, ?_⟩
  obtain ⟨mr, h, hp⟩ := Fixture.check_ok (x := Fixture.sampleRun [0, 1, 2, 3, 4, 5, 6, 7] (1/2))
    (fun mr => mr.2.values = [1, 0, 51, 50] ∧ mr.1.values = [0, 1, 2, 3, 50, 51, 52, 53]) (by decide +kernel)
  obtain ⟨h1, h2, h3⟩ := Fixture.sampleRun_ok h
  have hp' : mr.2.values = [1, 0, 51, 50] ∧ mr.1.values = [0, 1, 2, 3, 50, 51, 52, 53] := by simpa using hp
  exact ⟨mr.1, mr.2, h1, h2, hp'.2, h3, hp'.1⟩


/-! ### C21 -/

/-- The code's formula `npsum(us**2)**0.5 / n**0.5` over the reals. -/
noncomputable def rmsReal (us : List ℝ) (n : Nat) : ℝ := Real.sqrt ((us.map (· ^ 2)).sum) / Real.sqrt n

/-- The standard uncertainty of `Σ_c w_c x_c` for independent inputs `x_c` with standard uncertainties `u_c`. -/
noncomputable def propagated (w : CSR ℝ) (u : List ℝ) (i : Nat) : ℝ :=
  Real.sqrt (((w.rowEntries i).map fun e => (e.2 * u.getD e.1 0) ^ 2).sum)

/-- Row `i` of `w` averages the `n` inputs `c, c+1, …, c+n-1` with weight `1/n` each. -/
def CSR.AveragesRow (w : CSR ℝ) (i c n : Nat) : Prop :=
  ∃ a, w.indptr[i]? = some a ∧ w.indptr[i + 1]? = some (a + n) ∧ 1 ≤ n ∧
    slice w.indices a (a + n) = List.range' c n ∧ slice w.data a (a + n) = List.replicate n (1 / (n : ℝ))

/-- **C21 is false; what the code computes.** For a match-up averaging `n` inputs the uncertainty given to the sampled match-up is `√n` times
the standard uncertainty of the average. -/
theorem C21_factor (w : CSR ℝ) (u : List ℝ) (i c n : Nat) (hw : w.AveragesRow i c n) (hu : c + n ≤ u.length) :
    ∃ v, sampledU rmsReal w u i = .ok v ∧ v = Real.sqrt n * propagated w u i := by
  obtain ⟨a, h1, h2, hn, h3, h4⟩ := hw
  have hfirst : w.indices[a]? = some c := by
    have := congrArg (·[0]?) h3
    simp only [slice_getElem?] at this
    rw [if_pos (by omega), List.getElem?_range' (by omega)] at this
    simpa using this
  have hlast : w.indices[a + n - 1]? = some (c + n - 1) := by
    have := congrArg (·[n - 1]?) h3
    simp only [slice_getElem?] at this
    rw [if_pos (by omega), List.getElem?_range' (by omega)] at this
    rw [show a + n - 1 = a + (n - 1) by omega, this]
    congr 1; omega
  refine ⟨rmsReal (slice u c (c + n)) n, ?_, ?_⟩
  · unfold sampledU
    refine bind_ok.2 ⟨a, pyGet_ok.2 h1, bind_ok.2 ⟨a + n, pyGet_ok.2 h2, bind_ok.2 ⟨c, pyGet_ok.2 hfirst, bind_ok.2 ⟨c + n - 1, ?_, ?_⟩⟩⟩⟩
    · unfold pyGetInt
      rw [if_pos (by omega), show (((a + n : Nat) : Int) - 1).toNat = a + n - 1 by omega]
      exact pyGet_ok.2 hlast
    · rw [pure_ok, show c + n - 1 + 1 = c + n by omega, show c + n - c = n by omega]
  · have hslice : slice u c (c + n) = (List.range' c n).map fun k => u.getD k 0 := by
      apply List.ext_getElem?
      intro k
      rw [slice_getElem?, List.getElem?_map]
      by_cases hk : k < n
      · rw [if_pos (by omega), List.getElem?_range' hk, List.getElem?_eq_getElem (by omega)]
        simp [show c + k < u.length by omega]
      · rw [if_neg (by omega), List.getElem?_eq_none_iff.2 (by simp; omega)]; rfl
    have hent : w.rowEntries i = (List.range' c n).map fun k => (k, 1 / (n : ℝ)) := by
      unfold CSR.rowEntries
      rw [List.getD_eq_getElem?_getD, List.getD_eq_getElem?_getD, h1, h2]
      simp only [Option.getD_some]
      rw [h3, h4]
      apply List.ext_getElem?
      intro k
      by_cases hk : k < n
      · rw [List.getElem?_map, List.getElem?_range' hk]
        exact List.getElem?_zip_eq_some.2 ⟨List.getElem?_range' hk, by simp [hk]⟩
      · rw [List.getElem?_eq_none_iff.2 (by simp; omega), List.getElem?_eq_none_iff.2 (by simp; omega)]
    unfold rmsReal propagated
    rw [hslice, hent, List.map_map, List.map_map]
    simp only [Function.comp_def, mul_pow]
    have hn0 : (0 : ℝ) < n := by exact_mod_cast hn
    rw [List.sum_map_mul_left, Real.sqrt_mul (by positivity), Real.sqrt_sq (by positivity)]
    rw [div_eq_mul_inv, mul_comm, ← mul_assoc]
    congr 1
    have hs : Real.sqrt n * Real.sqrt n = n := Real.mul_self_sqrt hn0.le
    have hs0 : Real.sqrt n ≠ 0 := (Real.sqrt_pos.2 hn0).ne'
    field_simp
    rw [sq]; exact hs.symm

/-- **C21 (partial).** The uncertainty of a sampled match-up is the propagated standard uncertainty when the match-up uses a single
input (with weight 1). Missing: genuine averages, for which it is too large by the factor of `C21_factor`. -/
theorem C21_single_input_partial (w : CSR ℝ) (u : List ℝ) (i c : Nat) (hw : w.AveragesRow i c 1) (hu : c < u.length) :
    sampledU rmsReal w u i = .ok (propagated w u i) := by
  obtain ⟨v, h1, h2⟩ := C21_factor w u i c 1 hw hu
  rw [h1, h2]; simp

/-- A two-element average with unit uncertainties: the code gives 1, the average has standard uncertainty `1/√2`. -/
theorem C21_fails : let w : CSR ℝ := ⟨[1/2, 1/2], [0, 1], [0, 2], 1, 2⟩
    sampledU rmsReal w [1, 1] 0 = .ok 1 ∧ propagated w [1, 1] 0 = 1 / Real.sqrt 2 ∧ (1 : ℝ) ≠ 1 / Real.sqrt 2 := by
  intro w
  have hw : w.AveragesRow 0 0 2 := ⟨0, rfl, rfl, by omega, rfl, by simp [w, slice]⟩
  have hp : propagated w [1, 1] 0 = 1 / Real.sqrt 2 := by
    unfold propagated
    have : (w.rowEntries 0) = [(0, 1/2), (1, 1/2)] := rfl
    rw [this]
    simp only [List.map_cons, List.map_nil, List.sum_cons, List.sum_nil]
    norm_num
  have hs2 : Real.sqrt 2 ≠ 0 := by positivity
  refine ⟨?_, hp, ?_⟩
  · obtain ⟨v, h1, h2⟩ := C21_factor w [1, 1] 0 0 2 hw (by simp)
    rw [h1, h2, hp]
    push_cast
    rw [mul_one_div, div_self hs2]
  · intro h
    rw [eq_div_iff hs2, one_mul] at h
    have := Real.mul_self_sqrt (show (0:ℝ) ≤ 2 by norm_num)
    rw [h] at this
    norm_num at this

end Verif
