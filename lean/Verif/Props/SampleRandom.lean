import Verif.Model.SampleRandom
import Verif.Props.Sample
import Verif.Props.GNTotal
/-
Property C72: random sampling of a match-up.
-/
set_option autoImplicit false
namespace Verif
variable {α δ : Type}

/-- The size of a series with data, as the sampler finds it. -/
theorem series_total {mu : MatchUp α δ} (hwf : mu.WF) {n : Nat} (hn : n ∈ mu.idx.n_mu) :
    ∃ b M, pyIndex mu.idx.n_mu n = .ok b ∧ pyGet mu.idx.N_var b = .ok M ∧ 1 ≤ n ∧ mu.idx.Nm[n - 1]? = some M := by
  have hb := List.getElem?_idxOf hn
  obtain ⟨h1, M, h2, h3⟩ := hwf.idx.block _ _ hb
  exact ⟨_, M, pyIndex_of_mem hn, pyGet_ok.2 h3, h1, h2⟩

/-- Drawing the positions of a series: a sorted list without repetitions of `M / sf` of its match-ups. -/
theorem randomSample_ok {rnd : List Nat → Nat → List Nat} (hr : SampleOk rnd) {mu : MatchUp α δ} (hwf : mu.WF) {sf : Nat} (hsf : 1 ≤ sf) {n : Nat} (hn : n ∈ mu.idx.n_mu) :
    ∃ s M, randomSample rnd mu sf n = .ok s ∧ mu.idx.Nm[n - 1]? = some M ∧ s.length = M / sf ∧ s.Pairwise (· < ·) ∧ ∀ p ∈ s, p < M := by
  obtain ⟨b, M, h1, h2, _, h3⟩ := series_total hwf hn
  have hle : M / sf ≤ (List.range M).length := by rw [List.length_range]; exact Nat.div_le_self M sf
  obtain ⟨g1, g2⟩ := hr (List.range M) (M / sf) hle
  have hp := pySorted_perm (rnd (List.range M) (M / sf))
  have hsub := hp.subperm.trans g2
  refine ⟨pySorted (rnd (List.range M) (M / sf)), M, ?_, h3, by rw [hp.length_eq, g1], ?_, ?_⟩
  · unfold randomSample
    refine bind_ok.2 ⟨b, h1, bind_ok.2 ⟨M, h2, ?_⟩⟩
    rw [if_neg (by omega)]
    refine bind_ok.2 ⟨rnd (List.range M) (M / sf), ?_, rfl⟩
    unfold pySample
    rw [if_pos hle]
  · have hnd : (pySorted (rnd (List.range M) (M / sf))).Nodup := by
      obtain ⟨l, hl1, hl2⟩ := hsub
      exact hl1.nodup_iff.1 (hl2.nodup List.nodup_range)
    exact ((pySorted_sorted _).and hnd).imp fun h => by omega
  · intro p hp'
    exact List.mem_range.1 (hsub.subset hp')

/-- The dictionary of samples holds the sample of each series with data. -/
theorem lookup_series {f : Nat → Py (List Nat)} {l : List Nat} {samples : List (Nat × List Nat)} (h : l.mapM (fun n => do
    let s ← f n
    pure (n, s) : Nat → Py (Nat × List Nat)) = .ok samples) {n : Nat} (hn : n ∈ l) : ∃ s, lookupSample samples n = .ok s ∧ f n = .ok s := by
  obtain ⟨h1, h2⟩ := mapM_ok_get h
  have hkey : ∀ e ∈ samples, f e.1 = .ok e.2 := by
    intro e he
    obtain ⟨k, hk⟩ := List.mem_iff_getElem?.1 he
    have hkl := (List.getElem?_eq_some_iff.1 hk).1
    rw [h1] at hkl
    obtain ⟨c, g1, g2⟩ := h2 k _ (List.getElem?_eq_getElem hkl)
    rw [hk] at g2; cases g2
    obtain ⟨t, ht, g1⟩ := bind_ok.1 g1
    rw [pure_ok] at g1
    subst g1
    exact ht
  unfold lookupSample
  cases hf : samples.find? (fun e => e.1 == n) with
  | some e =>
    have hk := List.find?_some hf
    simp only [beq_iff_eq] at hk
    refine ⟨e.2, rfl, ?_⟩
    rw [← hk]; exact hkey e (List.mem_of_find?_eq_some hf)
  | none =>
    obtain ⟨k, hk⟩ := List.mem_iff_getElem?.1 hn
    obtain ⟨c, g1, g2⟩ := h2 k n hk
    obtain ⟨t, ht, g1⟩ := bind_ok.1 g1
    rw [pure_ok] at g1
    subst g1
    have := List.find?_eq_none.1 hf _ (List.mem_of_getElem? g2)
    simp at this

/-- **C72** (failure) Random sampling of an opened match-up: for every choice of samples and every factor, the positions of each series are drawn as they should be (`M / sf` distinct
match-ups of the series in order), but no sample is returned: `AttributeError` with uncertainties, `TypeError` without. -/
theorem C72_never_returns (rnd : List Nat → Nat → List Nat) (hr : SampleOk rnd) [Zero α] [DecidableEq α] (env : ReadEnv α δ) (ds : List (Dataset α)) (hc : ConsistentFiles ds)
    (hcol : ∀ d ∈ ds, 1 ≤ d.s1.m ∨ 1 ≤ d.s2.m) (mu : MatchUp α δ) (h : openMatchUp env ds = .ok mu) (sf : Nat) (hsf : 1 ≤ sf) :
    (∀ n ∈ mu.idx.n_mu, ∃ s M, randomSample rnd mu sf n = .ok s ∧ mu.idx.Nm[n - 1]? = some M ∧ s.length = M / sf ∧ s.Pairwise (· < ·) ∧ ∀ p ∈ s, p < M) ∧
    sampleMatchUp rnd mu (some mu.unc) sf = .error .attributeError ∧ sampleMatchUp rnd mu none sf = .error .typeError := by
  have hwf := opened_wellLaid env ds hc hcol mu h
  have hdraw : ∀ n ∈ mu.idx.n_mu, _ := fun n hn => randomSample_ok hr hwf hsf hn
  refine ⟨hdraw, ?_⟩
  have hset : ∀ n, n ∈ seriesSet mu.idx.n_mu ↔ n ∈ mu.idx.n_mu := by
    intro n
    rw [seriesSet_eq hwf.idx, List.mem_range'_1]
    constructor
    · intro hn; exact hwf.idx.all n hn.1 (by omega)
    · intro hn
      obtain ⟨_, M, _, _, h1, h2⟩ := series_total hwf hn
      have := (List.getElem?_eq_some_iff.1 h2).1
      omega
  obtain ⟨samples, hs⟩ := mapM_total (f := fun n => (do
      let s ← randomSample rnd mu sf n
      pure (n, s) : Py (Nat × List Nat))) (l := seriesSet mu.idx.n_mu) (by
    intro n hn
    obtain ⟨s, M, h1, _⟩ := hdraw n ((hset n).1 hn)
    exact ⟨(n, s), bind_ok.2 ⟨s, h1, rfl⟩⟩)
  have hlook : ∀ n ∈ mu.idx.n_mu, ∃ s, lookupSample samples n = .ok s ∧ randomSample rnd mu sf n = .ok s := fun n hn => lookup_series hs ((hset n).2 hn)
  obtain ⟨all, hall⟩ := mapM_total (f := lookupSample samples) (l := mu.idx.n_mu) fun n hn => (hlook n hn).imp fun _ h => h.1
  have hblock : ∀ (u : UncBlock α) (i : Nat), mu.unc[i]? = some u → randomBlock mu samples u i = .error .attributeError := by
    intro u i hu
    have hi : i < mu.idx.n_mu.length := by rw [← hwf.unc]; exact (List.getElem?_eq_some_iff.1 hu).1
    have hn := List.getElem?_eq_getElem hi
    obtain ⟨s, h1, h2⟩ := hlook _ (List.getElem_mem hi)
    obtain ⟨s', M, g1, g2, _, _, g3⟩ := hdraw _ (List.getElem_mem hi)
    rw [g1] at h2; cases h2
    obtain ⟨_, M', g4, g5⟩ := hwf.idx.block i _ hn
    rw [g2] at g4; cases g4
    have hlen : i < mu.idx.N_var.length := by rw [hwf.idx.len]; exact hi
    have htake : ∃ v, takeAt (slice mu.values (mu.idx.N_var.take i).sum (mu.idx.N_var.take (i + 1)).sum) s = .ok v := by
      refine mapM_total fun p hp => ?_
      have hsum : (mu.idx.N_var.take (i + 1)).sum = (mu.idx.N_var.take i).sum + M := take_succ_sum _ g5
      have hle : (mu.idx.N_var.take (i + 1)).sum ≤ mu.values.length := by
        rw [hwf.values]; exact (List.take_sublist _ _).sum_le_sum (by simp)
      have hl : p < (slice mu.values (mu.idx.N_var.take i).sum (mu.idx.N_var.take (i + 1)).sum).length := by
        have := g3 p hp
        simp only [slice, List.length_take, List.length_drop]
        omega
      exact ⟨_, pyGet_ok.2 (List.getElem?_eq_getElem hl)⟩
    obtain ⟨v, hv⟩ := htake
    unfold randomBlock
    rw [hwf.idx.bounds, pyGet_prefixSums _ (Nat.le_of_lt hlen), pyGet_prefixSums _ hlen, pyGet_ok.2 hn]
    simp only [bind, Except.bind, h1, hv, uncForm]
  have hne : mu.unc ≠ [] := by
    intro he
    have h0 : mu.idx.n_mu.length = 0 := by rw [← hwf.unc, he]; rfl
    obtain ⟨x, mx, hx, hf⟩ := getIdx_facts (openMatchUp_nonempty h)
    obtain ⟨x', hx', _, _, _, _, _, _, _, _, _, _, _, hidx, _⟩ := openMatchUp_inv h
    rw [hx] at hx'; cases hx'
    have hN : mu.idx.Nm.length = ds.length := by rw [hidx]; show x.Nm.length = _; rw [hf.Nm]; simp
    have hds := openMatchUp_nonempty h
    have : 1 ∈ mu.idx.n_mu := hwf.idx.all 1 le_rfl (by rw [hN]; exact List.length_pos_iff.2 hds)
    have := List.length_pos_of_mem this
    omega
  constructor
  · unfold sampleMatchUp
    rw [hs]
    simp only [bind, Except.bind, hall]
    cases hu : mu.unc with
    | nil => exact absurd hu hne
    | cons u us =>
      rw [List.zipIdx_cons, List.mapM_cons]
      simp only [bind, Except.bind, hblock u 0 (by rw [hu]; rfl)]
  · unfold sampleMatchUp
    rw [hs]
    simp only [bind, Except.bind, hall]

/-- **C72** (what is drawn) For every opened match-up, factor and random choice: the positions drawn for a series are `M / sf` distinct match-ups of that series, in order. Missing: the sample with
these positions, which the code never gets to (above). -/
theorem C72_draw_partial (rnd : List Nat → Nat → List Nat) (hr : SampleOk rnd) [Zero α] [DecidableEq α] (env : ReadEnv α δ) (ds : List (Dataset α)) (hc : ConsistentFiles ds)
    (hcol : ∀ d ∈ ds, 1 ≤ d.s1.m ∨ 1 ≤ d.s2.m) (mu : MatchUp α δ) (h : openMatchUp env ds = .ok mu) (sf : Nat) (hsf : 1 ≤ sf) (i : Nat) (d : Dataset α) (hd : ds[i]? = some d) :
    ∃ s, randomSample rnd mu sf (i + 1) = .ok s ∧ s.length = d.M / sf ∧ s.Pairwise (· < ·) ∧ ∀ p ∈ s, p < d.M := by
  have hwf := opened_wellLaid env ds hc hcol mu h
  obtain ⟨x, mx, hx, hf⟩ := getIdx_facts (openMatchUp_nonempty h)
  obtain ⟨x', hx', _, _, _, _, _, _, _, _, _, _, _, hidx, _⟩ := openMatchUp_inv h
  rw [hx] at hx'; cases hx'
  have hN : mu.idx.Nm = ds.map (·.M) := by rw [hidx]; exact hf.Nm
  have hi := (List.getElem?_eq_some_iff.1 hd).1
  obtain ⟨s, M, h1, h2, h3, h4, h5⟩ := randomSample_ok hr hwf hsf (hwf.idx.all (i + 1) (by omega) (by rw [hN, List.length_map]; omega))
  rw [hN, Nat.add_sub_cancel, List.getElem?_map, hd] at h2
  cases h2
  exact ⟨s, h1, h3, h4, h5⟩

/-- A concrete case: the match-up of the sampling example, any factor. -/
theorem C72_case : ∃ mu, openMatchUp Fixture.env [Fixture.pairFile [0, 1, 2, 3, 4, 5, 6, 7]] = .ok mu ∧ SampleOk Fixture.revSample ∧
    ∀ sf, 1 ≤ sf → sampleMatchUp Fixture.revSample mu (some mu.unc) sf = .error .attributeError := by
  obtain ⟨mr, h, _⟩ := Fixture.check_ok (x := Fixture.sampleRun [0, 1, 2, 3, 4, 5, 6, 7] (1/2)) (fun mr => mr.2.values = [1, 0, 51, 50]) (by decide +kernel)
  obtain ⟨h1, h2, h3⟩ := Fixture.sampleRun_ok h
  refine ⟨mr.1, h1, Fixture.revSample_ok, fun sf hsf => ?_⟩
  refine (C72_never_returns _ Fixture.revSample_ok Fixture.env _ (Fixture.pairFile_consistent _) ?_ mr.1 h1 sf hsf).2.1
  intro d hd
  simp only [List.mem_cons, List.not_mem_nil, or_false] at hd
  subst hd
  left; show 1 ≤ 1; omega

end Verif
