import Verif.Lemmas.Transform
import Verif.Lemmas.Layout
/-
What `transformRun` and `transformReverse` do to the whole object, block by block.
-/
set_option autoImplicit false
namespace Verif
variable {α δ : Type}

theorem scaleKs_eq [Zero α] {f : α → α → α} {x : Idx} {unck : List (List α)} {ks : List α} (hc : x.cNm = prefixSums x.Nm)
    (hI : x.Im.length = x.Nm.length) (hu : unck.map List.length = x.Nm) (hk : ks.length = x.Nm.sum) :
    scaleKs f x unck ks = .ok (List.zipWith f ks unck.flatten) := by
  have hul : unck.length = x.Nm.length := by rw [← hu]; simp
  have hfl : unck.flatten.length = x.Nm.sum := by rw [List.length_flatten, hu]
  have hZ : (List.zipWith f ks unck.flatten).length = x.Nm.sum := by simp [hfl, hk]
  unfold scaleKs
  have hlast : pyGet x.cNm (x.cNm.length - 1) = .ok x.Nm.sum := by
    rw [hc, prefixSums_length, pyGet_prefixSums _ (by omega), Nat.add_sub_cancel, List.take_length]
  refine bind_ok.2 ⟨_, hlast, ?_⟩
  have key : ∀ k, k ≤ x.Nm.length → (List.range k).foldlM (fun out i => (do
      let a ← pyGet x.cNm i
      let b ← pyGet x.cNm (i + 1)
      let u ← pyGet unck i
      let d ← npZip f (slice ks a b) u
      setSlice out a b d : Py (List α))) (List.replicate x.Nm.sum 0)
      = .ok ((List.zipWith f ks unck.flatten).take (x.Nm.take k).sum ++ List.replicate (x.Nm.sum - (x.Nm.take k).sum) 0) := by
    intro k
    induction k with
    | zero => intro _; simp [pure, Except.pure]
    | succ k ih =>
      intro hk1
      rw [List.range_succ, List.foldlM_append, ih (by omega)]
      have hkl : k < x.Nm.length := by omega
      have hku : k < unck.length := by omega
      have hs := take_succ_sum x.Nm (List.getElem?_eq_getElem hkl)
      have hle := take_sum_le_take_sum x.Nm (show k + 1 ≤ x.Nm.length by omega)
      rw [List.take_length] at hle
      have hlen : unck[k].length = x.Nm[k] := by
        have : (unck.map List.length)[k]? = x.Nm[k]? := by rw [hu]
        rw [List.getElem?_map, List.getElem?_eq_getElem hku, List.getElem?_eq_getElem hkl] at this
        simpa using this
      have hslice : slice unck.flatten (x.Nm.take k).sum (x.Nm.take (k+1)).sum = unck[k] := by
        have := slice_flatten unck (List.getElem?_eq_getElem hku)
        rwa [hu] at this
      refine bind_ok.2 ⟨_, rfl, ?_⟩
      rw [List.foldlM_cons]
      refine bind_ok.2 ⟨_, bind_ok.2 ⟨_, by rw [hc]; exact pyGet_prefixSums _ (by omega), bind_ok.2 ⟨_, by rw [hc]; exact pyGet_prefixSums _ (by omega),
        bind_ok.2 ⟨unck[k], pyGet_ok.2 (List.getElem?_eq_getElem hku), bind_ok.2 ⟨_, npZip_eq (by rw [slice_length]; omega),
          setSlice_eq (by omega) (by simp [hZ]; omega) (by simp [slice_length]; omega)⟩⟩⟩⟩, ?_⟩
      rw [List.foldlM_nil, pure_ok]
      set Z := List.zipWith f ks unck.flatten with hZd
      set a := (x.Nm.take k).sum with ha
      set b := (x.Nm.take (k+1)).sum with hb
      have hta : (Z.take a).length = a := by simp [hZ]; omega
      have e1 : (Z.take a ++ List.replicate (x.Nm.sum - a) 0).take a = Z.take a := by
        rw [List.take_append_of_le_length (by omega), List.take_of_length_le (by omega)]
      have e2 : (Z.take a ++ List.replicate (x.Nm.sum - a) (0 : α)).drop b = List.replicate (x.Nm.sum - b) 0 := by
        rw [List.drop_append, List.drop_of_length_le (by omega), hta, List.drop_replicate, List.nil_append]
        congr 1; omega
      have e3 : List.zipWith f (slice ks a b) unck[k] = slice Z a b := by
        rw [← hslice, hZd]; unfold slice
        rw [List.drop_zipWith, List.take_zipWith]
      have e4 : Z.take b = Z.take a ++ slice Z a b := by
        unfold slice
        rw [← List.take_add]; congr 1; omega
      rw [e1, e2, e3, e4]
  rw [hI, key _ (Nat.le_refl _), List.take_length, Nat.sub_self, List.replicate_zero, List.append_nil, List.take_of_length_le (by omega)]

theorem sysNums_ok {unc : List (UncBlock α)} {n : Nat} (h : numSys unc = .ok n) :
    (∀ u ∈ unc, u.unc.typeID = 2 ∨ u.unc.typeID = 4 → ∃ k, u.uS_i = some k ∧ k ≤ n) ∧
    (n = 0 ∨ ∃ u ∈ unc, (u.unc.typeID = 2 ∨ u.unc.typeID = 4) ∧ u.uS_i = some n) := by
  unfold numSys at h
  obtain ⟨l, hl, h⟩ := bind_ok.1 h
  rw [pure_ok] at h
  have hmem : ∀ (ms : List Nat) (z : Nat), (∀ m ∈ ms, m ≤ ms.foldl max z) ∧ z ≤ ms.foldl max z ∧ (ms.foldl max z = z ∨ ms.foldl max z ∈ ms) := by
    intro ms
    induction ms with
    | nil => intro z; simp
    | cons m ms ih =>
      intro z
      obtain ⟨h1, h2, h3⟩ := ih (max z m)
      refine ⟨?_, ?_, ?_⟩
      · intro m' hm'
        rcases List.mem_cons.1 hm' with rfl | hm'
        · rw [List.foldl_cons]; omega
        · exact h1 m' hm'
      · rw [List.foldl_cons]; omega
      · rw [List.foldl_cons]
        rcases h3 with h3 | h3
        · rcases Nat.le_total z m with hz | hz
          · right; rw [h3, Nat.max_eq_right hz]; simp
          · left; rw [h3, Nat.max_eq_left hz]
        · right; exact List.mem_cons_of_mem _ h3
  obtain ⟨h1, _, h3⟩ := hmem l 0
  rw [h] at h1 h3
  constructor
  · intro u hu ht
    have huf : u ∈ unc.filter fun u => u.unc.typeID == 2 || u.unc.typeID == 4 := List.mem_filter.2 ⟨hu, by simpa using ht⟩
    obtain ⟨i, hi, hiu⟩ := List.mem_iff_getElem.1 huf
    have hg := (mapM_ok_get hl).2 i _ (List.getElem?_eq_getElem hi)
    obtain ⟨k, hk, hlk⟩ := hg
    rw [hiu] at hk
    cases hs : u.uS_i with
    | none => rw [hs] at hk; cases hk
    | some k' =>
      rw [hs] at hk; cases hk
      exact ⟨k, rfl, h1 k (List.mem_of_getElem? hlk)⟩
  · rcases h3 with h3 | h3
    · exact .inl h3
    · right
      obtain ⟨i, hi, hin⟩ := List.mem_iff_getElem.1 h3
      have hif := hi
      rw [(mapM_ok_get hl).1] at hif
      obtain ⟨k, hk, hlk⟩ := (mapM_ok_get hl).2 i _ (List.getElem?_eq_getElem hif)
      rw [List.getElem?_eq_getElem hi, hin] at hlk
      cases hlk
      obtain ⟨hm, ht⟩ := List.mem_filter.1 (List.getElem_mem hif)
      refine ⟨_, hm, by simpa using ht, ?_⟩
      generalize (unc.filter fun u => u.unc.typeID == 2 || u.unc.typeID == 4)[i] = u at hk
      cases hs : u.uS_i with
      | none => rw [hs] at hk; cases hk
      | some k' => rw [hs] at hk; cases hk; rfl

/-- Everything `transformRun` does. -/
structure RunFacts [Field α] (mu nm : MatchUp α δ) (N : List Nat) (n : Nat) : Prop where
  sizes : ∀ (b m : Nat) (u : UncBlock α), mu.unc[b]? = some u → mu.idx.N_var[b]? = some m → ∃ m', N[b]? = some m' ∧ normSize mu u.unc m = .ok m'
  len : N.length = mu.unc.length
  sys : numSys mu.unc = .ok n
  idx : nm.idx = { mu.idx with N_var := N, idx := bumpLast (prefixSums N) n }
  vlen : nm.values.length = N.sum + n
  tail : ∀ k : Nat, N.sum ≤ k → k < N.sum + n → nm.values[k]? = some 0
  block : ∀ (b m m' : Nat) (u : UncBlock α), mu.unc[b]? = some u → mu.idx.N_var[b]? = some m → N[b]? = some m' →
    ∃ d, normBlock mu u.unc (slice mu.values (mu.idx.N_var.take b).sum ((mu.idx.N_var.take b).sum + m)) = .ok d ∧ (d.length = m' ∨ d.length = 1) ∧
      (d.length = m' → slice nm.values (N.take b).sum ((N.take b).sum + m') = d)
  ks : scaleKs (· / ·) mu.idx mu.unck mu.ks = .ok nm.ks
  unc : nm.unc = mu.unc
  orig : nm.original_idx = mu.original_idx
  ws : nm.w_matrices = mu.w_matrices
  us : nm.u_matrices = mu.u_matrices
  unck : nm.unck = mu.unck

theorem bumpLast_last (N : List Nat) (n : Nat) : pyGet (bumpLast (prefixSums N) n) ((bumpLast (prefixSums N) n).length - 1) = .ok (N.sum + n) := by
  obtain ⟨_, h2, h3⟩ := bumpLast_prefixSums N n
  rw [pyGet_ok, h2, Nat.add_sub_cancel]; exact h3

theorem transformRun_facts [Field α] {mu nm : MatchUp α δ} (hwf : mu.WF) (h : transformRun mu = .ok nm) : ∃ N n, RunFacts mu nm N n := by
  unfold transformRun at h
  obtain ⟨N, hN, h⟩ := bind_ok.1 h
  obtain ⟨n, hn, h⟩ := bind_ok.1 h
  obtain ⟨l, hl, h⟩ := bind_ok.1 h
  rw [bumpLast_last] at hl; cases hl
  obtain ⟨vals, hv, h⟩ := bind_ok.1 h
  obtain ⟨ks, hks, h⟩ := bind_ok.1 h
  rw [pure_ok] at h
  have hNl : N.length = mu.unc.length := by
    rw [(mapM_ok_get hN).1]; simp [hwf.idx.len, hwf.unc]
  obtain ⟨hst, _, _⟩ := bumpLast_prefixSums N n
  obtain ⟨w1, w2, w3⟩ := writeBlocks_inv hst (by simp [hNl]) (by simp) hv
  refine ⟨N, n, ?_⟩
  subst h
  refine ⟨?_, hNl, hn, rfl, by simpa using w1, ?_, ?_, hks, rfl, rfl, rfl, rfl, rfl⟩
  · intro b m u hu hm
    obtain ⟨m', h1, h2⟩ := (mapM_ok_get hN).2 b (m, u) (by rw [List.getElem?_zip_eq_some]; exact ⟨hm, hu⟩)
    exact ⟨m', h2, h1⟩
  · intro k hk1 hk2
    show vals[k]? = _
    rw [w2 k hk1, List.getElem?_replicate, if_pos hk2]
  · intro b m m' u hu hm hm'
    have hb : b < mu.unc.length := (List.getElem?_eq_some_iff.1 hu).1
    obtain ⟨d, h1, h2, h3, _⟩ := w3 b m' _ (by rw [List.getElem?_map, List.getElem?_zipIdx, hu]; rfl) hm'
    refine ⟨d, ?_, h2, h3⟩
    obtain ⟨a, ha, h1⟩ := bind_ok.1 h1
    obtain ⟨m2, hm2, h1⟩ := bind_ok.1 h1
    simp only [Nat.zero_add] at ha hm2
    have hbl : b < mu.idx.N_var.length := (List.getElem?_eq_some_iff.1 hm).1
    rw [hwf.idx.bounds, pyGet_prefixSums _ (by omega)] at ha
    cases ha
    rw [pyGet_ok, hm] at hm2; cases hm2
    exact h1

/-- Everything `transformReverse` does, for an object with start positions `N.take b |>.sum` and the original layout `N0`. -/
theorem transformReverse_facts [Field α] {nm mu' : MatchUp α δ} {N0 : List Nat} (ho : nm.original_idx.idx = prefixSums N0)
    (hN0 : nm.original_idx.N_var = N0) (hst : Starts nm.idx.idx nm.idx.N_var) (hl0 : nm.unc.length ≤ N0.length)
    (hl : nm.unc.length ≤ nm.idx.N_var.length) (h : transformReverse nm = .ok mu') :
    ∃ n last, numSys nm.unc = .ok n ∧ nm.idx.idx[nm.idx.idx.length - 1]? = some last ∧ mu'.idx = nm.original_idx ∧
      mu'.values.length = N0.sum ∧ scaleKs (· * ·) nm.original_idx nm.unck nm.ks = .ok mu'.ks ∧
      mu'.unc = nm.unc ∧ mu'.w_matrices = nm.w_matrices ∧ mu'.u_matrices = nm.u_matrices ∧ mu'.unck = nm.unck ∧
      ∀ (b m m' : Nat) (u : UncBlock α), nm.unc[b]? = some u → N0[b]? = some m → nm.idx.N_var[b]? = some m' →
        ∃ d, revBlock nm.w_matrices nm.u_matrices last n nm.values u (slice nm.values (nm.idx.N_var.take b).sum ((nm.idx.N_var.take b).sum + m')) = .ok d ∧
          (d.length = m ∨ d.length = 1) ∧ (d.length = m → slice mu'.values (N0.take b).sum ((N0.take b).sum + m) = d) ∧
          ∀ z : List α, z.length = m → setSlice z 0 m d = .ok (slice mu'.values (N0.take b).sum ((N0.take b).sum + m)) := by
  unfold transformReverse at h
  obtain ⟨t, ht, h⟩ := bind_ok.1 h
  rw [ho, prefixSums_length, pyGet_prefixSums _ (by omega), Nat.add_sub_cancel, List.take_length] at ht
  cases ht
  obtain ⟨n, hn, h⟩ := bind_ok.1 h
  obtain ⟨last, hlast, h⟩ := bind_ok.1 h
  obtain ⟨vals, hv, h⟩ := bind_ok.1 h
  obtain ⟨ks, hks, h⟩ := bind_ok.1 h
  rw [pure_ok] at h
  subst h
  rw [ho, hN0] at hv
  obtain ⟨w1, w2, w3⟩ := writeBlocks_inv (starts_prefixSums N0) (by simpa using hl0) (by simp) hv
  refine ⟨n, last, hn, pyGet_ok.1 hlast, rfl, by simpa using w1, hks, rfl, rfl, rfl, rfl, ?_⟩
  intro b m m' u hu hm hm'
  obtain ⟨d, h1, h2, h3⟩ := w3 b m _ (by rw [List.getElem?_map, List.getElem?_zipIdx, hu]; rfl) hm
  refine ⟨d, ?_, h2, h3⟩
  obtain ⟨a, ha, h1⟩ := bind_ok.1 h1
  obtain ⟨m2, hm2, h1⟩ := bind_ok.1 h1
  simp only [Nat.zero_add] at ha hm2
  rw [pyGet_ok, hst b (List.getElem?_eq_some_iff.1 hm').1] at ha
  cases ha
  rw [pyGet_ok, hm'] at hm2; cases hm2
  exact h1

theorem slices_eq {l l' : List α} {N : List Nat} (h1 : l.length = N.sum) (h2 : l'.length = N.sum)
    (h : ∀ (b m : Nat), N[b]? = some m → slice l (N.take b).sum ((N.take b).sum + m) = slice l' (N.take b).sum ((N.take b).sum + m)) : l = l' := by
  have key : ∀ k, k ≤ N.length → l.take (N.take k).sum = l'.take (N.take k).sum := by
    intro k
    induction k with
    | zero => intro _; simp
    | succ k ih =>
      intro hk
      have hg : N[k]? = some N[k] := List.getElem?_eq_getElem (by omega)
      have hs := take_succ_sum N hg
      rw [hs, List.take_add, List.take_add, ih (by omega)]
      have := h k _ hg
      unfold slice at this
      rw [Nat.add_sub_cancel_left] at this
      rw [this]
  have := key _ (Nat.le_refl _)
  rwa [List.take_length, List.take_of_length_le (by omega), List.take_of_length_le (by omega)] at this

end Verif
