import Verif.Lemmas.Transform2
import Verif.Props.ReaderUnc
import Mathlib.Tactic.NormNum
/-
Properties C23-C27: normalised independent variables.
-/
set_option autoImplicit false
namespace Verif
variable {α δ : Type} [Field α]

theorem getSlot_ok {β : Type} {l : List (Option β)} {i : Nat} {m : β} (h : l[i]? = some (some m)) : getSlot l i = .ok m := by
  unfold getSlot
  exact bind_ok.2 ⟨_, pyGet_ok.2 h, rfl⟩

theorem zipWith_div_mul {x u : List α} (h : x.length = u.length) (hu : ∀ a ∈ u, a ≠ 0) :
    List.zipWith (· * ·) (List.zipWith (· / ·) x u) u = x := by
  apply List.ext_getElem
  · simp [h]
  · intro i h1 h2
    have hi : i < u.length := by omega
    simp only [List.getElem_zipWith]
    exact div_mul_cancel₀ _ (hu _ (List.getElem_mem hi))

theorem zipWith_add_zero {x u : List α} (h : x.length = u.length) : List.zipWith (· + ·) x (u.map ((0 : α) * ·)) = x := by
  apply List.ext_getElem
  · simp [h]
  · intro i h1 h2
    simp

/-- One block: transformed, it has the announced size, and un-transformed with a zero systematic error it is the original block. -/
theorem block_roundtrip {mu : MatchUp α δ} {u : UncBlock α} {x values : List α} {last n_uS : Nat}
    (hb : u.Random x.length ∨ u.Averaged mu x.length)
    (hs : ∀ k : Nat, u.uS_i = some k → 1 ≤ k → u.unc.typeID = 2 ∨ u.unc.typeID = 4 → pyGetInt values ((last : Int) - n_uS - 1 + k) = .ok 0) :
    ∃ d m, normBlock mu u.unc x = .ok d ∧ normSize mu u.unc x.length = .ok m ∧ d.length = m ∧
      revBlock mu.w_matrices mu.u_matrices last n_uS values u d = .ok x := by
  rcases hb with ⟨uR, hl, h0, h⟩ | ⟨w_i, u_i, w, uv, hw, hu, hsh, hsq, hr, hul, h0, h⟩
  · rcases h with h | ⟨uS, k, h, hSl, hk, hk1⟩
    · refine ⟨_, x.length, by rw [h]; exact npZip_eq hl.symm, by rw [h]; rfl, by simp [hl], ?_⟩
      unfold revBlock
      rw [h]
      show npZip _ _ _ = _
      rw [npZip_eq (by simp [hl]), zipWith_div_mul hl.symm h0]
    · refine ⟨_, x.length, by rw [h]; exact npZip_eq hl.symm, by rw [h]; rfl, by simp [hl], ?_⟩
      have h00 := hs k hk hk1 (by rw [h]; exact .inl rfl)
      unfold revBlock
      rw [h, hk]
      refine bind_ok.2 ⟨x, ?_, bind_ok.2 ⟨0, h00, ?_⟩⟩
      · rw [npZip_eq (by simp [hl]), zipWith_div_mul hl.symm h0]
      · rw [npZip_eq (by simp [hSl]), zipWith_add_zero hSl.symm]
  · obtain ⟨d, hd, hdl, hdot⟩ := normRows_ok hsh hsq hul h0 hr.symm
    have hcomm : List.zipWith (· * ·) d uv = List.zipWith (· * ·) uv d := by
      rw [List.zipWith_comm]; congr 1; funext a b; exact mul_comm _ _
    have hmap : (List.zipWith (· * ·) d uv).map (· + 0) = List.zipWith (· * ·) uv d := by
      rw [hcomm]; simp
    have hnb : ∀ z, z = Unc.structured w_i u_i ∨ (∃ uS, z = .structuredSystematic w_i u_i uS) →
        normBlock mu z x = .ok d ∧ normSize mu z x.length = .ok uv.length := by
      intro z hz
      rcases hz with rfl | ⟨uS, rfl⟩ <;>
      exact ⟨bind_ok.2 ⟨w, getSlot_ok hw, bind_ok.2 ⟨uv, getSlot_ok hu, hd⟩⟩, bind_ok.2 ⟨uv, getSlot_ok hu, rfl⟩⟩
    refine ⟨d, uv.length, (hnb u.unc (by tauto)).1, (hnb u.unc (by tauto)).2, hdl, ?_⟩
    unfold revBlock
    rcases h with h | ⟨uS, k, h, hk, hk1⟩
    · rw [h]
      exact bind_ok.2 ⟨w, getSlot_ok hw, bind_ok.2 ⟨uv, getSlot_ok hu, bind_ok.2 ⟨_, npZip_eq hdl.symm, hdot⟩⟩⟩
    · have h00 := hs k hk hk1 (by rw [h]; exact .inr rfl)
      rw [h, hk]
      refine bind_ok.2 ⟨w, getSlot_ok hw, bind_ok.2 ⟨uv, getSlot_ok hu, bind_ok.2 ⟨0, h00, bind_ok.2 ⟨_, npZip_eq hdl, ?_⟩⟩⟩⟩
      rw [← hdot, ← hmap]
      simp

/-- Reading the slot of systematic error `k` (1-based, at most `n`) in an array of `T + n` variables. -/
theorem sys_slot {values : List α} {T n k : Nat} (h1 : 1 ≤ k) (hk : k ≤ n) (hl : values.length = T + n) :
    pyGetInt values (((T + n : Nat) : Int) - n - 1 + k) = pyGet values (T + (k - 1)) := by
  have e : (((T + n : Nat) : Int) - n - 1 + k) = ((T + (k - 1) : Nat) : Int) := by omega
  unfold pyGetInt
  rw [e, if_pos (by omega), Int.toNat_natCast]

/-- Lengths after `run`: what is needed to read the result back. -/
theorem RunFacts.reads {mu nm : MatchUp α δ} {N : List Nat} {n : Nat} (h : RunFacts mu nm N n) :
    Starts nm.idx.idx nm.idx.N_var ∧ nm.idx.N_var = N ∧ nm.idx.idx[nm.idx.idx.length - 1]? = some (N.sum + n) := by
  obtain ⟨h1, h2, h3⟩ := bumpLast_prefixSums N n
  refine ⟨by rw [h.idx]; exact h1, by rw [h.idx], ?_⟩
  rw [h.idx]
  show (bumpLast (prefixSums N) n)[(bumpLast (prefixSums N) n).length - 1]? = _
  rw [h2, Nat.add_sub_cancel, h3]

/-- Any successful round trip restores every block that is of one of the two kinds. -/
theorem roundtrip_block {mu nm mu' : MatchUp α δ} (hwf : mu.WF) (ho : mu.original_idx = mu.idx) (hrun : transformRun mu = .ok nm)
    (hrev : transformReverse nm = .ok mu') {b : Nat} {u : UncBlock α} {v : List α} (hu : mu.unc[b]? = some u) (hv : mu.BlockAt b v)
    (hk : u.Random v.length ∨ u.Averaged mu v.length) : mu'.BlockAt b v := by
  obtain ⟨start, size, hs, hm, hle, rfl⟩ := hv
  obtain ⟨N, n, hf⟩ := transformRun_facts hwf hrun
  obtain ⟨m', hm', hsz⟩ := hf.sizes b size u hu hm
  obtain ⟨d, hd, _, hdval⟩ := hf.block b size m' u hu hm hm'
  have hbl : b < mu.idx.N_var.length := (List.getElem?_eq_some_iff.1 hm).1
  rw [hwf.idx.bounds, prefixSums_getElem?_of_le _ (by omega)] at hs
  cases hs
  set x := (mu.values.drop (mu.idx.N_var.take b).sum).take size with hx
  have hxs : slice mu.values (mu.idx.N_var.take b).sum ((mu.idx.N_var.take b).sum + size) = x := by
    rw [hx]; unfold slice; rw [Nat.add_sub_cancel_left]
  have hxl : x.length = size := by rw [hx]; simp; omega
  obtain ⟨r1, r2, r3⟩ := hf.reads
  obtain ⟨n', last, hn', hlast, hidx, hvl, _, _, _, _, _, hblk⟩ := transformReverse_facts (N0 := mu.idx.N_var) (by rw [hf.orig, ho, hwf.idx.bounds])
    (by rw [hf.orig, ho]) r1 (by rw [hf.unc, hwf.unc, hwf.idx.len]) (by rw [r2, hf.len, hf.unc]) hrev
  rw [hf.unc, hf.sys] at hn'; cases hn'
  rw [r3] at hlast; cases hlast
  obtain ⟨d', hd', _, hd'v, _⟩ := hblk b size m' u (by rw [hf.unc]; exact hu) hm (by rw [r2]; exact hm')
  obtain ⟨e, m2, he, hm2, hel, hrv⟩ := block_roundtrip (last := N.sum + n) (n_uS := n) (values := nm.values) hk (by
    intro k hk hk1 ht
    obtain ⟨k', hk', hkn⟩ := (sysNums_ok hf.sys).1 u (List.mem_of_getElem? hu) ht
    rw [hk] at hk'; cases hk'
    rw [sys_slot hk1 hkn hf.vlen, pyGet_ok]
    exact hf.tail _ (by omega) (by omega))
  rw [hxs, he] at hd; cases hd
  rw [hxl, hsz] at hm2; cases hm2
  rw [r2, hdval hel, hf.ws, hf.us, hrv] at hd'
  cases hd'
  have hfin := hd'v hxl
  refine ⟨(mu.idx.N_var.take b).sum, size, ?_, ?_, ?_, ?_⟩
  · rw [hidx, hf.orig, ho, hwf.idx.bounds, prefixSums_getElem?_of_le _ (by omega)]
  · rw [hidx, hf.orig, ho, hm]
  · rw [hvl, ← hwf.values]; exact hle
  · rw [← hfin]; unfold slice; rw [Nat.add_sub_cancel_left]

/-! ### C23 -/

/-- **C23 (blocks).** After `run` and `reverse`, every block with independent or independent-and-systematic uncertainties (none zero) has its
original values, whatever the other blocks are. -/
theorem C23_blocks_restored {mu nm mu' : MatchUp α δ} (hwf : mu.WF) (ho : mu.original_idx = mu.idx) (hrun : transformRun mu = .ok nm)
    (hrev : transformReverse nm = .ok mu') (b : Nat) (u : UncBlock α) (v : List α) (hu : mu.unc[b]? = some u) (hv : mu.BlockAt b v)
    (hk : u.Random v.length) : mu'.BlockAt b v :=
  roundtrip_block hwf ho hrun hrev hu hv (.inl hk)

/-- **C23 (K).** After `run` and `reverse` the adjustment factors K are the original ones if their uncertainties are not zero. -/
theorem C23_K_restored {mu nm mu' : MatchUp α δ} (hwf : mu.WF) (hI : mu.idx.Im.length = mu.idx.Nm.length) (ho : mu.original_idx = mu.idx)
    (hrun : transformRun mu = .ok nm) (hrev : transformReverse nm = .ok mu') (h0 : ∀ u ∈ mu.unck, ∀ a ∈ u, a ≠ 0) : mu'.ks = mu.ks := by
  obtain ⟨N, n, hf⟩ := transformRun_facts hwf hrun
  obtain ⟨r1, r2, r3⟩ := hf.reads
  obtain ⟨n', last, hn', hlast, hidx, hvl, hks, _⟩ := transformReverse_facts (N0 := mu.idx.N_var) (by rw [hf.orig, ho, hwf.idx.bounds])
    (by rw [hf.orig, ho]) r1 (by rw [hf.unc, hwf.unc, hwf.idx.len]) (by rw [r2, hf.len, hf.unc]) hrev
  have hfl : mu.unck.flatten.length = mu.idx.Nm.sum := by rw [List.length_flatten, hwf.unck]
  have h1 := hf.ks
  rw [scaleKs_eq hwf.idx.series hI hwf.unck hwf.ks] at h1
  have e : List.zipWith (· / ·) mu.ks mu.unck.flatten = nm.ks := by injection h1
  rw [hf.orig, ho, hf.unck, scaleKs_eq hwf.idx.series hI hwf.unck (by rw [← e]; simp [hwf.ks, hfl]), ← e,
      zipWith_div_mul (by rw [hwf.ks, hfl]) (by
        intro a ha
        obtain ⟨u, hu, hau⟩ := List.mem_flatten.1 ha
        exact h0 u hu a hau)] at hks
  injection hks with hks
  exact hks.symm

theorem numSys_total {unc : List (UncBlock α)} (h : ∀ u ∈ unc, u.unc.typeID = 2 ∨ u.unc.typeID = 4 → ∃ k, u.uS_i = some k) :
    ∃ n, numSys unc = .ok n := by
  refine ⟨_, bind_ok.2 ⟨_, mapM_ok_of (g := fun u => u.uS_i.getD 0) ?_, rfl⟩⟩
  intro u hu
  obtain ⟨h1, h2⟩ := List.mem_filter.1 hu
  obtain ⟨k, hk⟩ := h u h1 (by simpa using h2)
  rw [hk]; rfl

theorem kinds_numbered {mu : MatchUp α δ} {u : UncBlock α} {n : Nat} (h : u.Random n ∨ u.Averaged mu n)
    (ht : u.unc.typeID = 2 ∨ u.unc.typeID = 4) : ∃ k, u.uS_i = some k ∧ 1 ≤ k := by
  rcases h with ⟨uR, _, _, h | ⟨uS, k, h, _, hk⟩⟩ | ⟨w_i, u_i, w, uv, _, _, _, _, _, _, _, h | ⟨uS, k, h, hk⟩⟩
  · rw [h] at ht; simp [Unc.typeID] at ht
  · exact ⟨k, hk⟩
  · rw [h] at ht; simp [Unc.typeID] at ht
  · exact ⟨k, hk⟩

/-- **C23, C24 (whole object).** For a match-up all of whose blocks are either random with non-zero uncertainties or averaged by a
sequentially solvable W matrix, `run` and `reverse` both succeed and give back all values and all K. -/
theorem C24_roundtrip_partial {mu : MatchUp α δ} (h : mu.Normalisable) :
    ∃ nm mu', transformRun mu = .ok nm ∧ transformReverse nm = .ok mu' ∧ mu'.values = mu.values ∧ mu'.ks = mu.ks ∧ mu'.idx = mu.idx := by
  have hwf := h.wf
  have hvar : ∀ b : Nat, b < mu.unc.length → ∃ n : Nat, mu.idx.N_var[b]? = some n := by
    intro b hb
    exact ⟨_, List.getElem?_eq_getElem (by rw [hwf.idx.len, ← hwf.unc]; exact hb)⟩
  -- the slice of a block has the length of the block
  have hxl : ∀ (b n : Nat), mu.idx.N_var[b]? = some n →
      (slice mu.values (mu.idx.N_var.take b).sum ((mu.idx.N_var.take b).sum + n)).length = n := by
    intro b n hn
    have hs := take_succ_sum _ hn
    have hb : b < mu.idx.N_var.length := (List.getElem?_eq_some_iff.1 hn).1
    have hle := take_sum_le_take_sum mu.idx.N_var (show b + 1 ≤ mu.idx.N_var.length by omega)
    rw [List.take_length] at hle
    rw [slice_length, hwf.values]; omega
  -- per block, with a dummy array of zeros for the systematic errors
  have hblk : ∀ (b n : Nat) (u : UncBlock α), mu.unc[b]? = some u → mu.idx.N_var[b]? = some n →
      ∃ d m, normBlock mu u.unc (slice mu.values (mu.idx.N_var.take b).sum ((mu.idx.N_var.take b).sum + n)) = .ok d ∧
        normSize mu u.unc n = .ok m ∧ d.length = m ∧ ∀ (values : List α) (last n_uS : Nat),
        (∀ k : Nat, u.uS_i = some k → 1 ≤ k → u.unc.typeID = 2 ∨ u.unc.typeID = 4 → pyGetInt values ((last : Int) - n_uS - 1 + k) = .ok 0) →
        revBlock mu.w_matrices mu.u_matrices last n_uS values u d
          = .ok (slice mu.values (mu.idx.N_var.take b).sum ((mu.idx.N_var.take b).sum + n)) := by
    intro b n u hu hn
    have hkind := h.blocks b n u hu hn
    set x := slice mu.values (mu.idx.N_var.take b).sum ((mu.idx.N_var.take b).sum + n) with hx
    rw [← hxl b n hn, ← hx] at hkind
    have hkb := hkind
    -- an instance to name d and m
    have hinst : ∃ d m, normBlock mu u.unc x = .ok d ∧ normSize mu u.unc x.length = .ok m ∧ d.length = m := by
      by_cases ht : u.unc.typeID = 2 ∨ u.unc.typeID = 4
      · obtain ⟨k, hk, hk1⟩ := kinds_numbered hkb ht
        obtain ⟨d, m, h1, h2, h3, _⟩ := block_roundtrip (values := List.replicate k (0 : α)) (last := k) (n_uS := k) hkind (by
          intro k' hk' h1' _
          rw [hk] at hk'; cases hk'
          have := sys_slot (values := List.replicate k (0 : α)) (T := 0) (n := k) hk1 (Nat.le_refl _) (by simp)
          rw [Nat.zero_add] at this
          rw [this, pyGet_ok, List.getElem?_replicate, if_pos (by omega)])
        exact ⟨d, m, h1, h2, h3⟩
      · obtain ⟨d, m, h1, h2, h3, _⟩ := block_roundtrip (values := []) (last := 0) (n_uS := 0) hkind (fun k' _ _ ht' => absurd ht' ht)
        exact ⟨d, m, h1, h2, h3⟩
    obtain ⟨d, m, h1, h2, h3⟩ := hinst
    refine ⟨d, m, h1, by rwa [hx, hxl b n hn] at h2, h3, ?_⟩
    intro values last n_uS hz
    obtain ⟨d', m', h1', h2', h3', h4'⟩ := block_roundtrip hkind hz
    rw [h1] at h1'; cases h1'
    exact h4'
  -- run
  obtain ⟨n, hn⟩ := numSys_total (unc := mu.unc) (by
    intro u hu ht
    obtain ⟨b, hb, hbu⟩ := List.mem_iff_getElem.1 hu
    obtain ⟨m, hm⟩ := hvar b hb
    obtain ⟨k, hk, _⟩ := kinds_numbered (h.blocks b m u (by rw [List.getElem?_eq_getElem hb, hbu]) hm) ht
    exact ⟨k, hk⟩)
  have hN : ∃ N, (mu.idx.N_var.zip mu.unc).mapM (fun nu => normSize mu nu.2.unc nu.1) = .ok N := by
    refine ⟨_, mapM_ok_of (g := fun nu => match normSize mu nu.2.unc nu.1 with | .ok m => m | .error _ => 0) ?_⟩
    rintro ⟨m, u⟩ hmu
    obtain ⟨b, hb⟩ := List.mem_iff_getElem?.1 hmu
    rw [List.getElem?_zip_eq_some] at hb
    obtain ⟨d, m', _, h2, _⟩ := hblk b m u hb.2 hb.1
    simp only at h2 ⊢
    rw [h2]
  obtain ⟨N, hN⟩ := hN
  have hNl : N.length = mu.unc.length := by
    rw [(mapM_ok_get hN).1]; simp [hwf.idx.len, hwf.unc]
  obtain ⟨hst, _, _⟩ := bumpLast_prefixSums N n
  have hrun : ∃ nm, transformRun mu = .ok nm := by
    obtain ⟨vals, hv⟩ := writeBlocks_total (init := List.replicate (N.sum + n) (0 : α)) (data := mu.unc.zipIdx.map fun ui => (do
        let istart ← pyGet mu.idx.idx ui.2
        let size ← pyGet mu.idx.N_var ui.2
        normBlock mu ui.1.unc (slice mu.values istart (istart + size)) : Py (List α))) hst (by simp [hNl]) (by simp) (by
      intro b m r hr hm
      rw [List.getElem?_map, List.getElem?_zipIdx] at hr
      cases hu : mu.unc[b]? with
      | none => rw [hu] at hr; simp at hr
      | some u =>
        rw [hu] at hr
        simp only [Option.map_some, Option.some.injEq, Nat.zero_add] at hr
        have hb : b < mu.unc.length := (List.getElem?_eq_some_iff.1 hu).1
        obtain ⟨n0, hn0⟩ := hvar b hb
        obtain ⟨d, m', h1, h2, h3, _⟩ := hblk b n0 u hu hn0
        obtain ⟨m2, hm2, hm2'⟩ := (mapM_ok_get hN).2 b (n0, u) (by rw [List.getElem?_zip_eq_some]; exact ⟨hn0, hu⟩)
        simp only at hm2
        rw [h2] at hm2; cases hm2
        rw [hm] at hm2'; cases hm2'
        refine ⟨d, ?_, h3⟩
        rw [← hr]
        refine bind_ok.2 ⟨_, ?_, bind_ok.2 ⟨n0, pyGet_ok.2 hn0, h1⟩⟩
        rw [hwf.idx.bounds, pyGet_prefixSums _ (by rw [hwf.idx.len, ← hwf.unc]; omega)])
    have hks := scaleKs_eq (f := (· / · : α → α → α)) hwf.idx.series h.pairs hwf.unck hwf.ks
    exact ⟨_, bind_ok.2 ⟨N, hN, bind_ok.2 ⟨n, hn, bind_ok.2 ⟨_, bumpLast_last N n, bind_ok.2 ⟨vals, hv, bind_ok.2 ⟨_, hks, rfl⟩⟩⟩⟩⟩⟩
  obtain ⟨nm, hrun⟩ := hrun
  obtain ⟨N', n', hf⟩ := transformRun_facts hwf hrun
  obtain ⟨r1, r2, r3⟩ := hf.reads
  have hrev : ∃ mu', transformReverse nm = .ok mu' := by
    obtain ⟨vals, hv⟩ := writeBlocks_total (init := List.replicate mu.idx.N_var.sum (0 : α)) (data := nm.unc.zipIdx.map fun ui => (do
        let istart_i ← pyGet nm.idx.idx ui.2
        let size_i ← pyGet nm.idx.N_var ui.2
        revBlock nm.w_matrices nm.u_matrices (N'.sum + n') n' nm.values ui.1 (slice nm.values istart_i (istart_i + size_i)) : Py (List α)))
      (starts_prefixSums mu.idx.N_var) (by simp [hf.unc, hwf.unc, hwf.idx.len]) (by simp) (by
      intro b m r hr hm
      rw [List.getElem?_map, List.getElem?_zipIdx, hf.unc] at hr
      cases hu : mu.unc[b]? with
      | none => rw [hu] at hr; simp at hr
      | some u =>
        rw [hu] at hr
        simp only [Option.map_some, Option.some.injEq, Nat.zero_add] at hr
        obtain ⟨d, m', h1, h2, h3, h4⟩ := hblk b m u hu hm
        obtain ⟨m2, hm2, hsz⟩ := hf.sizes b m u hu hm
        rw [h2] at hsz; cases hsz
        obtain ⟨d', e1, _, e3⟩ := hf.block b m m' u hu hm hm2
        rw [h1] at e1; cases e1
        have hrb := h4 nm.values (N'.sum + n') n' (by
          intro k hk hk1 ht
          obtain ⟨k', hk', hkn⟩ := (sysNums_ok hf.sys).1 u (List.mem_of_getElem? hu) ht
          rw [hk] at hk'; cases hk'
          rw [sys_slot hk1 hkn hf.vlen, pyGet_ok]
          exact hf.tail _ (by omega) (by omega))
        refine ⟨_, ?_, hxl b m hm⟩
        rw [← hr]
        have hbN : b < N'.length := (List.getElem?_eq_some_iff.1 hm2).1
        refine bind_ok.2 ⟨_, pyGet_ok.2 (r1 b (by rw [r2]; exact hbN)), bind_ok.2 ⟨m', pyGet_ok.2 (by rw [r2]; exact hm2), ?_⟩⟩
        rw [r2, e3 h3, hf.ws, hf.us]
        exact hrb)
    have hks1 := hf.ks
    rw [scaleKs_eq hwf.idx.series h.pairs hwf.unck hwf.ks] at hks1
    have e : List.zipWith (· / ·) mu.ks mu.unck.flatten = nm.ks := by injection hks1
    have hfl : mu.unck.flatten.length = mu.idx.Nm.sum := by rw [List.length_flatten, hwf.unck]
    have hks := scaleKs_eq (f := (· * · : α → α → α)) (ks := nm.ks) hwf.idx.series h.pairs hwf.unck (by rw [← e]; simp [hwf.ks, hfl])
    refine ⟨_, bind_ok.2 ⟨mu.idx.N_var.sum, ?_, bind_ok.2 ⟨n', by rw [hf.unc]; exact hf.sys, bind_ok.2 ⟨_, pyGet_ok.2 r3, bind_ok.2 ⟨vals, ?_,
      bind_ok.2 ⟨_, by rw [hf.orig, h.orig, hf.unck]; exact hks, rfl⟩⟩⟩⟩⟩⟩
    · rw [hf.orig, h.orig, hwf.idx.bounds, prefixSums_length, pyGet_prefixSums _ (by omega), Nat.add_sub_cancel, List.take_length]
    · rw [hf.orig, h.orig, hwf.idx.bounds]; exact hv
  obtain ⟨mu', hrev⟩ := hrev
  have hfacts := transformReverse_facts (N0 := mu.idx.N_var) (by rw [hf.orig, h.orig, hwf.idx.bounds])
    (by rw [hf.orig, h.orig]) r1 (by rw [hf.unc, hwf.unc, hwf.idx.len]) (by rw [r2, hf.len, hf.unc]) hrev
  obtain ⟨_, _, _, _, hidx, hvl, _⟩ := hfacts
  refine ⟨nm, mu', hrun, hrev, ?_, C23_K_restored hwf h.pairs h.orig hrun hrev h.unck, by rw [hidx, hf.orig, h.orig]⟩
  apply slices_eq hvl hwf.values
  intro b m hm
  have hb : b < mu.unc.length := by rw [hwf.unc, ← hwf.idx.len]; exact (List.getElem?_eq_some_iff.1 hm).1
  have hx := hxl b m hm
  have hsl : slice mu.values (mu.idx.N_var.take b).sum ((mu.idx.N_var.take b).sum + m) = (mu.values.drop (mu.idx.N_var.take b).sum).take m := by
    unfold slice; rw [Nat.add_sub_cancel_left]
  have hsum := take_succ_sum _ hm
  have hle := take_sum_le_take_sum mu.idx.N_var (show b + 1 ≤ mu.idx.N_var.length by rw [hwf.idx.len, ← hwf.unc]; omega)
  rw [List.take_length] at hle
  have hbound : mu.idx.idx[b]? = some (mu.idx.N_var.take b).sum := by
    rw [hwf.idx.bounds, prefixSums_getElem?_of_le _ (by rw [hwf.idx.len, ← hwf.unc]; omega)]
  obtain ⟨s, m2, hs2, hm2, _, heq⟩ := roundtrip_block hwf h.orig hrun hrev (List.getElem?_eq_getElem hb)
    (v := (mu.values.drop (mu.idx.N_var.take b).sum).take m) ⟨_, m, hbound, hm, by rw [hwf.values]; omega, rfl⟩ (by
      rw [← hsl, hx]; exact h.blocks b m _ (List.getElem?_eq_getElem hb) hm)
  rw [hidx, hf.orig, h.orig] at hs2 hm2
  rw [hbound] at hs2; cases hs2
  rw [hm] at hm2; cases hm2
  rw [hsl, heq]
  unfold slice
  rw [Nat.add_sub_cancel_left]


/-! ### C25 -/

/-- **C25.** Layout of the transformed object: a random block keeps its size; an averaged block has one variable per element of its u vector (per
averaged input); boundaries are running totals; after the last block there is exactly one variable per systematic effect (numbered `1..n`),
initially zero. -/
theorem C25_layout {mu nm : MatchUp α δ} (hwf : mu.WF) (hrun : transformRun mu = .ok nm) (n : Nat)
    (hnum : ∀ u ∈ mu.unc, u.uS_i ≠ none ↔ u.unc.typeID = 2 ∨ u.unc.typeID = 4)
    (hn : ∀ k, (∃ u ∈ mu.unc, u.uS_i = some k) ↔ 1 ≤ k ∧ k ≤ n) :
    nm.idx.N_var.length = mu.idx.N_var.length ∧
    (∀ (b m : Nat) (u : UncBlock α), mu.unc[b]? = some u → mu.idx.N_var[b]? = some m → u.unc.typeID = 1 ∨ u.unc.typeID = 2 →
      nm.idx.N_var[b]? = some m) ∧
    (∀ (b w_i u_i : Nat) (u : UncBlock α) (uv : List α), mu.unc[b]? = some u →
      (u.unc = .structured w_i u_i ∨ ∃ s, u.unc = .structuredSystematic w_i u_i s) → mu.u_matrices[u_i]? = some (some uv) →
      nm.idx.N_var[b]? = some uv.length) ∧
    (∀ b, b < nm.idx.N_var.length → nm.idx.idx[b]? = some (nm.idx.N_var.take b).sum) ∧
    nm.idx.idx.length = nm.idx.N_var.length + 1 ∧ nm.idx.idx[nm.idx.N_var.length]? = some (nm.idx.N_var.sum + n) ∧
    nm.values.length = nm.idx.N_var.sum + n ∧
    (∀ k : Nat, nm.idx.N_var.sum ≤ k → k < nm.values.length → nm.values[k]? = some 0) ∧
    nm.idx.n_sensor = mu.idx.n_sensor ∧ nm.idx.n_mu = mu.idx.n_mu ∧ nm.idx.n_cov = mu.idx.n_cov := by
  obtain ⟨N, n', hf⟩ := transformRun_facts hwf hrun
  obtain ⟨r1, r2, r3⟩ := hf.reads
  have hnn : n' = n := by
    obtain ⟨s1, s2⟩ := sysNums_ok hf.sys
    apply Nat.le_antisymm
    · rcases s2 with h | ⟨u, hu, _, hk⟩
      · omega
      · exact ((hn n').1 ⟨u, hu, hk⟩).2
    · rcases Nat.eq_zero_or_pos n with h | h
      · omega
      · obtain ⟨u, hu, hk⟩ := (hn n).2 ⟨h, Nat.le_refl _⟩
        obtain ⟨k, hk', hle⟩ := s1 u hu ((hnum u hu).1 (by rw [hk]; simp))
        rw [hk] at hk'; cases hk'
        exact hle
  subst hnn
  obtain ⟨b1, b2, b3⟩ := bumpLast_prefixSums N n'
  have hidx : nm.idx.idx = bumpLast (prefixSums N) n' := by rw [hf.idx]
  have hvar : ∀ b : Nat, b < mu.unc.length → ∃ m : Nat, mu.idx.N_var[b]? = some m := by
    intro b hb
    exact ⟨_, List.getElem?_eq_getElem (by rw [hwf.idx.len, ← hwf.unc]; exact hb)⟩
  refine ⟨by rw [r2, hf.len, hwf.unc, hwf.idx.len], ?_, ?_, r1, by rw [hidx, r2, b2], by rw [hidx, r2, b3], by rw [r2, hf.vlen], ?_, by rw [hf.idx], by rw [hf.idx],
    by rw [hf.idx]⟩
  · intro b m u hu hm ht
    obtain ⟨m', hm', hs⟩ := hf.sizes b m u hu hm
    rw [r2, hm']
    cases hu' : u.unc <;> rw [hu'] at hs ht <;> simp [Unc.typeID] at ht <;> (cases hs; rfl)
  · intro b w_i u_i u uv hu ht huv
    obtain ⟨m, hm⟩ := hvar b (List.getElem?_eq_some_iff.1 hu).1
    obtain ⟨m', hm', hs⟩ := hf.sizes b m u hu hm
    rw [r2, hm']
    rcases ht with ht | ⟨s, ht⟩ <;> rw [ht] at hs <;>
    · unfold normSize at hs
      obtain ⟨uv', h1, h2⟩ := bind_ok.1 hs
      rw [getSlot_ok huv] at h1; cases h1
      rw [pure_ok] at h2; rw [h2]
  · intro k hk1 hk2
    rw [r2] at hk1
    exact hf.tail k hk1 (by rw [← hf.vlen]; exact hk2)

/-! ### C26 -/

theorem zipWith3_get {x uR uS : List α} {e y r s : α} {i : Nat} (hy : x[i]? = some y) (hr : uR[i]? = some r) (hs : uS[i]? = some s) :
    (List.zipWith (· + ·) (List.zipWith (· * ·) x uR) (uS.map (e * ·)))[i]? = some (y * r + e * s) := by
  simp [List.getElem?_zipWith, hy, hr, hs]

/-- **C26.** Every systematic block of a transformed match-up has a slot among the variables after the last block (in the order of the effect numbers); two blocks share a slot iff they
belong to the same sensor and covariate; every variable after the last block is somebody's slot; and un-transforming any array of values adds, to
every element of the block, the value in that slot times the block's systematic uncertainty. -/
theorem C26_systematic_slots {mu nm : MatchUp α δ} (hwf : mu.WF) (ho : mu.original_idx = mu.idx) (hrun : transformRun mu = .ok nm) (n : Nat)
    (hnum : ∀ u ∈ mu.unc, u.uS_i ≠ none ↔ u.unc.typeID = 2 ∨ u.unc.typeID = 4)
    (hn : ∀ k, (∃ u ∈ mu.unc, u.uS_i = some k) ↔ 1 ≤ k ∧ k ≤ n)
    (hsame : ∀ (i j : Nat) (u v : UncBlock α) (a b : Nat), mu.unc[i]? = some u → mu.unc[j]? = some v → u.uS_i = some a → v.uS_i = some b →
      (a = b ↔ mu.idx.n_sensor[i]? = mu.idx.n_sensor[j]? ∧ mu.idx.n_cov[i]? = mu.idx.n_cov[j]?)) :
    ∃ slot : Nat → Nat,
      (∀ (b k : Nat) (u : UncBlock α), mu.unc[b]? = some u → u.uS_i = some k → slot b = nm.idx.N_var.sum + (k - 1)) ∧
      (∀ (b : Nat) (u : UncBlock α), mu.unc[b]? = some u → u.unc.typeID = 2 ∨ u.unc.typeID = 4 →
        nm.idx.N_var.sum ≤ slot b ∧ slot b < nm.values.length) ∧
      (∀ (b c : Nat) (u v : UncBlock α), mu.unc[b]? = some u → mu.unc[c]? = some v → u.unc.typeID = 2 ∨ u.unc.typeID = 4 →
        v.unc.typeID = 2 ∨ v.unc.typeID = 4 →
        (slot b = slot c ↔ mu.idx.n_sensor[b]? = mu.idx.n_sensor[c]? ∧ mu.idx.n_cov[b]? = mu.idx.n_cov[c]?)) ∧
      (∀ p, nm.idx.N_var.sum ≤ p → p < nm.values.length → ∃ (b : Nat) (u : UncBlock α), mu.unc[b]? = some u ∧
        (u.unc.typeID = 2 ∨ u.unc.typeID = 4) ∧ slot b = p) ∧
      (∀ (xs : List α) (est : MatchUp α δ), xs.length = nm.values.length → transformReverse { nm with values := xs } = .ok est →
        ∀ (b i start : Nat) (u : UncBlock α) (v : List α) (e : α), mu.unc[b]? = some u → est.BlockAt b v → i < v.length →
          nm.idx.idx[b]? = some start → xs[slot b]? = some e →
          (∀ (uR uS : List α) (y r s : α), u.unc = .systematic uR uS → uR.length = v.length → uS.length = v.length →
            xs[start + i]? = some y → uR[i]? = some r → uS[i]? = some s → v[i]? = some (y * r + e * s)) ∧
          (∀ (w_i u_i : Nat) (uS : α) (w : CSR α) (uv : List α), u.unc = .structuredSystematic w_i u_i uS →
            mu.w_matrices[w_i]? = some (some w) → mu.u_matrices[u_i]? = some (some uv) → w.nrows = v.length → uv.length = w.ncols → w.Shape →
            v[i]? = some ((w.rowEntries i).map fun en => en.2 * (xs.getD (start + en.1) 0 * uv.getD en.1 0 + e * uS)).sum)) := by
  obtain ⟨l1, _, lW, l4, _, l6, l7, _⟩ := C25_layout hwf hrun n hnum hn
  obtain ⟨N, n', hf⟩ := transformRun_facts hwf hrun
  obtain ⟨r1, r2, r3⟩ := hf.reads
  have hnn : n' = n := by
    have := hf.vlen; rw [r2] at l7; omega
  subst hnn
  have hk : ∀ (b : Nat) (u : UncBlock α), mu.unc[b]? = some u → u.unc.typeID = 2 ∨ u.unc.typeID = 4 → ∃ k, u.uS_i = some k ∧ 1 ≤ k ∧ k ≤ n' := by
    intro b u hu ht
    have hmem := List.mem_of_getElem? hu
    obtain ⟨k, hk⟩ := Option.ne_none_iff_exists'.1 ((hnum u hmem).2 ht)
    exact ⟨k, hk, (hn k).1 ⟨u, hmem, hk⟩⟩
  let lab : Nat → Nat := fun b => (mu.unc[b]?.bind (·.uS_i)).getD 0
  have hlab : ∀ (b : Nat) (u : UncBlock α) (k : Nat), mu.unc[b]? = some u → u.uS_i = some k → lab b = k := by
    intro b u k hu hk; simp [lab, hu, hk]
  refine ⟨fun b => N.sum + (lab b - 1), ?_, ?_, ?_, ?_, ?_⟩
  · intro b k u hu hk
    beta_reduce
    rw [hlab b u k hu hk, r2]
  · intro b u hu ht
    obtain ⟨k, hk, h1, h2⟩ := hk b u hu ht
    beta_reduce
    rw [hlab b u k hu hk, r2, hf.vlen]; omega
  · intro b c u v hu hv htu htv
    obtain ⟨k, hk1, h1, h2⟩ := hk b u hu htu
    obtain ⟨k', hk1', h1', h2'⟩ := hk c v hv htv
    beta_reduce
    rw [hlab b u k hu hk1, hlab c v k' hv hk1', ← hsame b c u v k k' hu hv hk1 hk1']
    omega
  · intro p hp1 hp2
    rw [r2] at hp1; rw [hf.vlen] at hp2
    obtain ⟨u, hu, hk⟩ := (hn (p - N.sum + 1)).2 ⟨by omega, by omega⟩
    obtain ⟨b, hb⟩ := List.mem_iff_getElem?.1 hu
    exact ⟨b, u, hb, (hnum u hu).1 (by rw [hk]; simp), by beta_reduce; rw [hlab b u _ hb hk]; omega⟩
  · intro xs est hxs hrev b i start u v e hu hv hi hst he
    obtain ⟨n2, last, hn2, hlast, hidx, hvl, _, _, _, _, _, hblk⟩ := transformReverse_facts (nm := { nm with values := xs }) (N0 := mu.idx.N_var)
      (by rw [hf.orig, ho, hwf.idx.bounds]) (by rw [hf.orig, ho]) r1 (by rw [hf.unc, hwf.unc, hwf.idx.len]) (by rw [r2, hf.len, hf.unc]) hrev
    simp only at hn2 hlast hidx hblk
    rw [hf.unc, hf.sys] at hn2; cases hn2
    rw [r3] at hlast; cases hlast
    obtain ⟨s0, m, hs0, hm, hle, hveq⟩ := hv
    rw [hidx, hf.orig, ho] at hs0 hm
    have hbl : b < mu.idx.N_var.length := (List.getElem?_eq_some_iff.1 hm).1
    rw [hwf.idx.bounds, prefixSums_getElem?_of_le _ (by omega)] at hs0
    cases hs0
    obtain ⟨m', hm', hsz⟩ := hf.sizes b m u hu hm
    have hmN : b < N.length := (List.getElem?_eq_some_iff.1 hm').1
    have hst' : start = (N.take b).sum := by
      have := r1 b (by rw [r2]; exact hmN)
      rw [hst] at this; rw [r2] at this; exact Option.some.inj this
    obtain ⟨d, hd, hdl, hdv, _⟩ := hblk b m m' u (by rw [hf.unc]; exact hu) hm (by rw [r2]; exact hm')
    rw [r2, ← hst', hf.ws, hf.us] at hd
    have hvl' : v.length = m := by rw [hveq]; simp; omega
    have hvd : d.length = m → v = d := by
      intro h
      rw [hveq, ← hdv h]; unfold slice; rw [Nat.add_sub_cancel_left]
    -- bounds of the block inside xs
    have hsum := take_succ_sum N hm'
    have hleN := take_sum_le_take_sum N (show b + 1 ≤ N.length by omega)
    rw [List.take_length] at hleN
    have hxl : (slice xs start (start + m')).length = m' := by rw [slice_length, hxs, hf.vlen]; omega
    have hsys : ∀ k, u.uS_i = some k → 1 ≤ k → k ≤ n' → pyGetInt xs (((N.sum + n' : Nat) : Int) - n' - 1 + k) = .ok e := by
      intro k hk h1 h2
      rw [sys_slot h1 h2 (by rw [hxs, hf.vlen]), pyGet_ok, ← he]
      simp only
      rw [hlab b u k hu hk]
    constructor
    · intro uR uS y r s hun hlR hlS hy hr hs
      obtain ⟨k, hk1, h1, h2⟩ := hk b u hu (by rw [hun]; exact .inl rfl)
      rw [hun] at hsz; cases hsz
      unfold revBlock at hd
      rw [hun, hk1] at hd
      obtain ⟨a, ha, hd⟩ := bind_ok.1 hd
      obtain ⟨e', he', hd⟩ := bind_ok.1 hd
      replace he' := (hsys k hk1 h1 h2).symm.trans he'
      cases he'
      rw [npZip_eq (by rw [hxl]; omega)] at ha; cases ha
      rw [npZip_eq (by simp only [List.length_zipWith, List.length_map, hxl]; omega)] at hd; cases hd
      rw [hvd (by simp only [List.length_zipWith, List.length_map, hxl]; omega)]
      apply zipWith3_get _ hr hs
      rw [slice_getElem?, if_pos (by omega), hy]
    · intro w_i u_i uS w uv hun hw huv hrow hul hsh
      obtain ⟨k, hk1, h1, h2⟩ := hk b u hu (by rw [hun]; exact .inr rfl)
      have hm2 : m' = uv.length := by
        rw [hun] at hsz
        obtain ⟨uv', h1, h2⟩ := bind_ok.1 hsz
        rw [getSlot_ok huv] at h1; cases h1
        rw [pure_ok] at h2; exact h2.symm
      unfold revBlock at hd
      rw [hun, hk1] at hd
      obtain ⟨w', hw', hd⟩ := bind_ok.1 hd
      rw [getSlot_ok hw] at hw'; cases hw'
      obtain ⟨uv', huv', hd⟩ := bind_ok.1 hd
      rw [getSlot_ok huv] at huv'; cases huv'
      obtain ⟨e', he', hd⟩ := bind_ok.1 hd
      replace he' := (hsys k hk1 h1 h2).symm.trans he'
      cases he'
      obtain ⟨p, hp, hd⟩ := bind_ok.1 hd
      rw [npZip_eq (by rw [hxl]; omega)] at hp; cases hp
      unfold csrDot at hd
      rw [if_pos (by simp only [List.length_zipWith, List.length_map, hxl]; omega)] at hd
      cases hd
      rw [hvd (by simp; omega), List.getElem?_map, List.getElem?_range (by omega)]
      simp only [Option.map_some, Option.some.injEq]
      congr 1
      apply List.map_congr_left
      intro en hen
      have hlt := hsh.entry_lt hen
      congr 1
      have hxe : (slice xs start (start + uv.length))[en.1]? = some (xs.getD (start + en.1) 0) := by
        rw [slice_getElem?, if_pos (by omega), List.getD_eq_getElem?_getD, List.getElem?_eq_getElem (by rw [hxs, hf.vlen]; omega)]
        rfl
      have hue : uv[en.1]? = some (uv.getD en.1 0) := by
        rw [List.getD_eq_getElem?_getD, List.getElem?_eq_getElem (by omega)]; rfl
      subst hm2
      rw [List.getD_eq_getElem?_getD, List.getElem?_map, List.getElem?_zipWith, hxe, hue]
      rfl


/-! ### C27 -/

theorem pyGetInt_append {xs a : List α} {p : Nat} (h : p < xs.length) : pyGetInt (xs ++ a) (p : Int) = pyGetInt xs (p : Int) := by
  unfold pyGetInt
  rw [if_pos (by omega), if_pos (by omega), Int.toNat_natCast]
  unfold pyGet
  rw [List.getElem?_append_left h]

/-- The un-normalisation of one block inside the solver (array `xs` of the variables, then the parameters `a`) is that of `reverse`. -/
theorem unconvBlock_eq {ws : List (Option (CSR α))} {us : List (Option (List α))} {T n : Nat} {xs a v : List α} {u : UncBlock α}
    (hx : xs.length = T + n) (hs : ∀ k, u.uS_i = some k → 1 ≤ k ∧ k ≤ n) (d : List α) :
    unconvBlock ws us (T + n) n (xs ++ a) u v = .ok d ↔ revBlock ws us (T + n) n xs u v = .ok d := by
  have hcomm : ∀ a b : List α, npZip (· * ·) a b = npZip (· * ·) b a := by
    intro a b
    have h1 : List.zipWith (· * ·) a b = List.zipWith (· * ·) b a := by
      rw [List.zipWith_comm]; congr 1; funext x y; exact mul_comm _ _
    unfold npZip
    by_cases h : a.length = b.length
    · rw [if_pos h, if_pos h.symm, h1]
    · rw [if_neg h, if_neg (fun h' => h h'.symm)]
      rcases a with _ | ⟨x, _ | ⟨x2, a⟩⟩ <;> rcases b with _ | ⟨y, _ | ⟨y2, b⟩⟩ <;> simp [mul_comm] at h ⊢
  have hsys : ∀ k, u.uS_i = some k → pyGetInt (xs ++ a) (((T + n : Nat) : Int) - n - 1 + k) = pyGetInt xs (((T + n : Nat) : Int) - n - 1 + k) := by
    intro k hk
    obtain ⟨h1, h2⟩ := hs k hk
    have e : (((T + n : Nat) : Int) - n - 1 + k) = ((T + (k - 1) : Nat) : Int) := by omega
    rw [e]
    exact pyGetInt_append (by omega)
  have hpos : ∀ k, u.uS_i = some k → ∃ s, pyGetInt xs (((T + n : Nat) : Int) - n - 1 + k) = .ok s := by
    intro k hk
    obtain ⟨h1, h2⟩ := hs k hk
    rw [sys_slot h1 h2 hx]
    exact ⟨_, pyGet_ok.2 (List.getElem?_eq_getElem (by omega))⟩
  unfold unconvBlock revBlock
  cases hu : u.unc with
  | independent uR => rfl
  | structured w_i u_i => rfl
  | systematic uR uS =>
    cases hk : u.uS_i with
    | none => simp [bind_ok]
    | some k =>
      obtain ⟨s, hsv⟩ := hpos k hk
      simp only [hsys k hk, hsv, bind_ok]
      constructor
      · rintro ⟨s', h1, b, h2, h3⟩; exact ⟨b, h2, s', h1, h3⟩
      · rintro ⟨b, h2, s', h1, h3⟩; exact ⟨s', h1, b, h2, h3⟩
  | structuredSystematic w_i u_i uS =>
    cases hk : u.uS_i with
    | none => simp [bind_ok]
    | some k =>
      obtain ⟨s, hsv⟩ := hpos k hk
      simp only [hsys k hk, hsv, bind_ok, hcomm v]
      constructor
      · rintro ⟨s', h1, b, h2, c, h3, h4⟩; exact ⟨b, h2, c, h3, s', h1, h4⟩
      · rintro ⟨b, h2, c, h3, s', h1, h4⟩; exact ⟨s', h1, b, h2, c, h3, h4⟩

/-- **C27.** Take the variables `xs` of a transformed match-up, as changed by the solver, followed by any parameters `a`. If the
transformation's `reverse` of `xs` succeeds with `est`, then for every sensor and series in the block table, the solver's un-normalisation
(python and compiled) gives exactly the list of the blocks of `est` for that sensor, series and covariate number `1, 2, ...`. -/
theorem C27_unconvert_is_reverse {mu nm est : MatchUp α δ} (hwf : mu.WF) (ho : mu.original_idx = mu.idx) (hrun : transformRun mu = .ok nm)
    (hnum : ∀ u ∈ mu.unc, ∀ k, u.uS_i = some k → 1 ≤ k ∧ (u.unc.typeID = 2 ∨ u.unc.typeID = 4))
    (xs a : List α) (hxs : xs.length = nm.values.length) (hrev : transformReverse { nm with values := xs } = .ok est)
    (s n N_cov : Nat) (hs : mu.idx.sensor_ms[s]? = some N_cov) (hcov : 1 ≤ N_cov)
    (hblocks : ∀ c, 1 ≤ c → c ≤ N_cov → (s, n, c) ∈ mu.idx.blocks) :
    ∃ cols, unconvertXs nm.w_matrices nm.u_matrices (xs ++ a) nm.unc nm.idx s n = .ok cols ∧
      unconvertXsCython nm.w_matrices nm.u_matrices (xs ++ a) nm.unc nm.idx mu.idx.idx s n N_cov = .ok cols ∧
      cols.length = N_cov ∧
      ∀ (c : Nat) (col : List α), cols[c]? = some col → ∃ b : Nat, est.idx.blocks[b]? = some (s, n, c + 1) ∧ est.BlockAt b col := by
  obtain ⟨N, n', hf⟩ := transformRun_facts hwf hrun
  obtain ⟨r1, r2, r3⟩ := hf.reads
  obtain ⟨n2, last, hn2, hlast, hidx, hvl, _, _, _, _, _, hblk⟩ := transformReverse_facts (nm := { nm with values := xs }) (N0 := mu.idx.N_var)
    (by rw [hf.orig, ho, hwf.idx.bounds]) (by rw [hf.orig, ho]) r1 (by rw [hf.unc, hwf.unc, hwf.idx.len]) (by rw [r2, hf.len, hf.unc]) hrev
  simp only at hn2 hlast hidx hblk
  rw [hf.unc, hf.sys] at hn2; cases hn2
  rw [r3] at hlast; cases hlast
  have hbk : nm.idx.blocks = mu.idx.blocks := by rw [hf.idx]; rfl
  -- the block of covariate c
  have hone : ∀ c, c < N_cov → ∃ (b m m' : Nat) (u : UncBlock α) (d col : List α), pyIndex nm.idx.blocks (s, n, c + 1) = .ok b ∧
      mu.idx.blocks[b]? = some (s, n, c + 1) ∧
      mu.idx.N_var[b]? = some m ∧ mu.idx.Nm[n - 1]? = some m ∧ mu.unc[b]? = some u ∧ N[b]? = some m' ∧
      unconvBlock nm.w_matrices nm.u_matrices (N.sum + n') n' (xs ++ a) u (slice (xs ++ a) (N.take b).sum ((N.take b).sum + m')) = .ok d ∧
      setSlice (List.replicate m 0) 0 m d = .ok col ∧ est.BlockAt b col := by
    intro c hc
    have hmem := hblocks (c + 1) (by omega) (by omega)
    obtain ⟨b, hp⟩ : ∃ b, pyIndex mu.idx.blocks (s, n, c + 1) = .ok b := ⟨_, pyIndex_of_mem hmem⟩
    have hb := pyIndex_ok hp
    have hnmu : mu.idx.n_mu[b]? = some n := by
      unfold Idx.blocks at hb
      rw [List.getElem?_zip_eq_some, List.getElem?_zip_eq_some] at hb
      exact hb.2.1
    obtain ⟨h1, m, hNm, hm⟩ := hwf.idx.block b n hnmu
    have hbu : b < mu.unc.length := by rw [hwf.unc]; exact (List.getElem?_eq_some_iff.1 hnmu).1
    obtain ⟨m', hm', hsz⟩ := hf.sizes b m _ (List.getElem?_eq_getElem hbu) hm
    obtain ⟨d, hd, hdl, hdv, hbc⟩ := hblk b m m' mu.unc[b] (by rw [hf.unc]; exact List.getElem?_eq_getElem hbu) hm (by rw [r2]; exact hm')
    have hbN : b < N.length := (List.getElem?_eq_some_iff.1 hm').1
    have hsum := take_succ_sum N hm'
    have hleN := take_sum_le_take_sum N (show b + 1 ≤ N.length by omega)
    rw [List.take_length] at hleN
    have hsl : slice (xs ++ a) (N.take b).sum ((N.take b).sum + m') = slice xs (N.take b).sum ((N.take b).sum + m') := by
      apply List.ext_getElem?
      intro i
      rw [slice_getElem?, slice_getElem?]
      split
      · rw [List.getElem?_append_left (by rw [hxs, hf.vlen]; omega)]
      · rfl
    have hsum0 := take_succ_sum mu.idx.N_var hm
    have hb0 : b < mu.idx.N_var.length := (List.getElem?_eq_some_iff.1 hm).1
    have hle0 := take_sum_le_take_sum mu.idx.N_var (show b + 1 ≤ mu.idx.N_var.length by omega)
    rw [List.take_length] at hle0
    refine ⟨b, m, m', mu.unc[b], d, _, by rw [hbk]; exact hp, hb, hm, hNm, List.getElem?_eq_getElem hbu, hm', ?_, hbc (List.replicate m 0) (by simp), ?_⟩
    · rw [hsl]
      rw [unconvBlock_eq (by rw [hxs, hf.vlen])]
      · rw [r2] at hd; exact hd
      · intro k hk
        obtain ⟨g1, g2⟩ := hnum _ (List.getElem_mem hbu) k hk
        obtain ⟨k', hk', hle⟩ := (sysNums_ok hf.sys).1 _ (List.getElem_mem hbu) g2
        rw [hk] at hk'; cases hk'
        exact ⟨g1, hle⟩
    · refine ⟨(mu.idx.N_var.take b).sum, m, ?_, by rw [hidx, hf.orig, ho]; exact hm, by rw [hvl]; omega, ?_⟩
      · rw [hidx, hf.orig, ho, hwf.idx.bounds, prefixSums_getElem?_of_le _ (by omega)]
      · unfold slice; rw [Nat.add_sub_cancel_left]
  -- number of rows
  obtain ⟨b1, m1, _, _, _, _, hp1, hbb1, hv1, hNm1, _⟩ := hone 0 (by omega)
  let f : Nat → Py (List α) := fun c => do
    let im ← pyIndex nm.idx.blocks (s, n, c + 1)
    let ib ← pyGet nm.idx.idx im
    let k ← pyGet nm.idx.N_var im
    let u ← pyGet nm.unc im
    let last ← pyGet nm.idx.idx (nm.idx.idx.length - 1)
    let col ← unconvBlock nm.w_matrices nm.u_matrices last n' (xs ++ a) u (slice (xs ++ a) ib (ib + k))
    setSlice (List.replicate m1 0) 0 m1 col
  have hf1 : ∀ c, c < N_cov → ∃ b col, mu.idx.blocks[b]? = some (s, n, c + 1) ∧ f c = .ok col ∧ est.BlockAt b col := by
    intro c hc
    obtain ⟨b, m, m', u, d, col, hp, hbb, hm, hNm, hu, hm', hub, hset, hat⟩ := hone c hc
    rw [hNm1] at hNm; cases hNm
    refine ⟨b, col, hbb, ?_, hat⟩
    have hbN : b < N.length := (List.getElem?_eq_some_iff.1 hm').1
    exact bind_ok.2 ⟨b, hp, bind_ok.2 ⟨_, pyGet_ok.2 (r1 b (by rw [r2]; exact hbN)), bind_ok.2 ⟨m', pyGet_ok.2 (by rw [r2]; exact hm'),
      bind_ok.2 ⟨u, pyGet_ok.2 (by rw [hf.unc]; exact hu), bind_ok.2 ⟨_, pyGet_ok.2 r3, bind_ok.2 ⟨d, by rw [r2]; exact hub, hset⟩⟩⟩⟩⟩⟩
  have hcols : ∃ cols, (List.range N_cov).mapM f = .ok cols := by
    refine ⟨_, mapM_ok_of (g := fun c => match f c with | .ok l => l | .error _ => []) ?_⟩
    intro c hc
    obtain ⟨b, col, _, h, _⟩ := hf1 c (List.mem_range.1 hc)
    rw [h]
  obtain ⟨cols, hcols⟩ := hcols
  have hms : nm.idx.sensor_ms = mu.idx.sensor_ms := by rw [hf.idx]
  have hnm : nm.idx.Nm = mu.idx.Nm := by rw [hf.idx]
  have hb1 : b1 < mu.idx.N_var.length := (List.getElem?_eq_some_iff.1 hv1).1
  refine ⟨cols, ?_, ?_, by rw [(mapM_ok_get hcols).1]; simp, ?_⟩
  · exact bind_ok.2 ⟨N_cov, pyGet_ok.2 (by rw [hms]; exact hs), bind_ok.2 ⟨n', by rw [hf.unc]; exact hf.sys, bind_ok.2 ⟨m1, pyGet_ok.2 (by rw [hnm]; exact hNm1), hcols⟩⟩⟩
  · have hdiff : (mu.idx.N_var.take (b1 + 1)).sum - (mu.idx.N_var.take b1).sum = m1 := by
      rw [take_succ_sum _ hv1]; omega
    refine bind_ok.2 ⟨n', by rw [hf.unc]; exact hf.sys, bind_ok.2 ⟨b1, hp1, bind_ok.2 ⟨(mu.idx.N_var.take b1).sum, ?_,
      bind_ok.2 ⟨(mu.idx.N_var.take (b1 + 1)).sum, ?_, ?_⟩⟩⟩⟩
    · rw [hwf.idx.bounds, pyGet_prefixSums _ (by omega)]
    · rw [hwf.idx.bounds, pyGet_prefixSums _ (by omega)]
    · rw [hdiff]; exact hcols
  · intro c col hc
    have hclt : c < N_cov := by
      have := (List.getElem?_eq_some_iff.1 hc).1
      rw [(mapM_ok_get hcols).1] at this; simpa using this
    obtain ⟨b, col', hbb, hfc, hat⟩ := hf1 c hclt
    obtain ⟨col2, h1, h2⟩ := (mapM_ok_get hcols).2 c c (by rw [List.getElem?_range hclt])
    rw [hfc] at h1; cases h1
    rw [hc] at h2; cases h2
    refine ⟨b, ?_, hat⟩
    rw [hidx, hf.orig, ho]; exact hbb


/-! ### Concrete cases -/
namespace Fixture

def qside (name : String) (m : Nat) (ty use : List Nat) (base : Nat) : Side ℚ where
  name := name
  m := m
  X := fun r c => (base + 10 * c + r * r : Nat)
  Ur := fun r c => (1 + r + c : Nat)
  Us := fun _ c => (2 + c : Nat)
  utype := fun c => ty.getD c 0
  wUse := fun c => use.getD c 0
  uUse := fun c => use.getD c 0

/-- Three match-ups; sensor A has a random and a random-and-systematic covariate, sensor B an averaged and an averaged-and-systematic one with the
given W matrix (row pointers, columns, weights) and `ncols` averaged inputs. -/
def qfile (rows cols : List Nat) (weights : List ℚ) (u : List ℚ) : Dataset ℚ where
  M := 3
  s1 := qside "A" 2 [1, 2] [0, 0] 5
  s2 := qside "B" 2 [3, 4] [1, 1] 50
  K := fun i => (i + 7 : Nat)
  Kr := fun i => (i + 1 : Nat)
  Ks := fun _ => 0
  time1 := fun i => (1000 + i : Nat)
  time2 := fun i => (2000 + i : Nat)
  hasUse := true
  vars := []
  wNnz := [cols.length]
  wVal := weights
  wCol := cols
  wRow := [rows]
  uCount := [u.length]
  uVal := u

def qenv : ReadEnv ℚ Int where
  nan := -99
  fill := -1
  toInt := id
  rss := fun a b => a + b
  dateZero := 0
  toDate := fun _ => 0
  enumStr := List.eraseDups
  enumNat := List.eraseDups

/-- Rolling average of two inputs. -/
def rolling : Dataset ℚ := qfile [0, 2, 4, 6] [0, 1, 1, 2, 2, 3] [1/2, 1/2, 1/2, 1/2, 1/2, 1/2] [1, 2, 3, 4]

theorem qfile_consistent (rows cols : List Nat) (weights u : List ℚ) : ConsistentFiles [qfile rows cols weights u] := by
  constructor
  · intro d hd
    simp only [List.mem_cons, List.not_mem_nil, or_false] at hd
    subst hd
    show "A" ≠ "B"; decide
  · intro d hd e he s hs t ht _
    simp only [List.mem_cons, List.not_mem_nil, or_false] at hd he hs ht
    subst hd; subst he
    rcases hs with rfl | rfl <;> rcases ht with rfl | rfl <;> rfl

theorem qfile_wf {rows cols : List Nat} {weights u : List ℚ} {mu : MatchUp ℚ Int}
    (h : openMatchUp qenv [qfile rows cols weights u] = .ok mu) : mu.WF := by
  refine opened_wellLaid qenv _ (qfile_consistent _ _ _ _) ?_ _ h
  intro d hd
  simp only [List.mem_cons, List.not_mem_nil, or_false] at hd
  subst hd
  left; show 1 ≤ 2; omega

/-- Boolean test of `Sequential` and `Shape` together with the conditions on u. -/
def wOk (w : CSR ℚ) (uv : List ℚ) (n : Nat) : Bool :=
  decide (w.indptr.length = w.nrows + 1) && decide (w.data.length = w.indices.length) && w.indices.all (fun c => decide (c < w.ncols)) &&
  ((List.range w.nrows).all fun i =>
    (decide (w.freshEntries i = w.rowEntries i) && decide (((w.rowEntries i).map (·.2)).sum = 1)) ||
    (decide (w.freshEntries i ≠ w.rowEntries i) && decide (((w.freshEntries i).map (·.2)).sum ≠ 0))) &&
  decide (w.nrows = n) && decide (uv.length = w.ncols) && uv.all (fun a => decide (a ≠ 0))

def blockOk (mu : MatchUp ℚ Int) (u : UncBlock ℚ) (n : Nat) : Bool :=
  match u.unc with
  | .independent uR => decide (uR.length = n) && uR.all (fun a => decide (a ≠ 0))
  | .systematic uR uS => decide (uR.length = n) && uR.all (fun a => decide (a ≠ 0)) && decide (uS.length = n) && (u.uS_i.any fun k => decide (1 ≤ k))
  | .structured w_i u_i => (mu.w_matrices.getD w_i none).any fun w => (mu.u_matrices.getD u_i none).any fun uv => wOk w uv n
  | .structuredSystematic w_i u_i _ => ((mu.w_matrices.getD w_i none).any fun w => (mu.u_matrices.getD u_i none).any fun uv => wOk w uv n) &&
      (u.uS_i.any fun k => decide (1 ≤ k))

def normOk (mu : MatchUp ℚ Int) : Bool :=
  decide (mu.idx.Im.length = mu.idx.Nm.length) && decide (mu.original_idx = mu.idx) &&
  ((mu.unc.zip mu.idx.N_var).all fun un => blockOk mu un.1 un.2) && mu.unck.all (fun u => u.all fun a => decide (a ≠ 0))

theorem getD_none_some {β : Type} {l : List (Option β)} {i : Nat} {m : β} (h : l.getD i none = some m) : l[i]? = some (some m) := by
  rw [List.getD_eq_getElem?_getD] at h
  cases hl : l[i]? with
  | none => rw [hl] at h; cases h
  | some o => rw [hl] at h; simp only [Option.getD_some] at h; rw [h]

theorem wOk_spec {w : CSR ℚ} {uv : List ℚ} {n : Nat} (h : wOk w uv n = true) :
    w.Shape ∧ w.Sequential ∧ w.nrows = n ∧ uv.length = w.ncols ∧ ∀ a ∈ uv, a ≠ 0 := by
  unfold wOk at h
  simp only [Bool.and_eq_true, decide_eq_true_eq, List.all_eq_true, Bool.or_eq_true] at h
  obtain ⟨⟨⟨⟨⟨⟨h1, h2⟩, h3⟩, h4⟩, h5⟩, h6⟩, h7⟩ := h
  exact ⟨⟨h1, h2, h3⟩, fun i hi => h4 i (List.mem_range.2 hi), h5, h6, h7⟩

theorem blockOk_spec {mu : MatchUp ℚ Int} {u : UncBlock ℚ} {n : Nat} (h : blockOk mu u n = true) : u.Random n ∨ u.Averaged mu n := by
  unfold blockOk at h
  cases hu : u.unc with
  | independent uR =>
    simp only [hu, Bool.and_eq_true, decide_eq_true_eq, List.all_eq_true] at h
    exact .inl ⟨uR, h.1, h.2, .inl hu⟩
  | systematic uR uS =>
    simp only [hu, Bool.and_eq_true, decide_eq_true_eq, List.all_eq_true, Option.any_eq_true] at h
    obtain ⟨⟨⟨h1, h2⟩, h3⟩, k, h4, h5⟩ := h
    exact .inl ⟨uR, h1, h2, .inr ⟨uS, k, hu, h3, h4, h5⟩⟩
  | structured w_i u_i =>
    simp only [hu, Option.any_eq_true] at h
    obtain ⟨w, hw, uv, huv, hok⟩ := h
    obtain ⟨g1, g2, g3, g4, g5⟩ := wOk_spec hok
    exact .inr ⟨w_i, u_i, w, uv, getD_none_some hw, getD_none_some huv, g1, g2, g3, g4, g5, .inl hu⟩
  | structuredSystematic w_i u_i uS =>
    simp only [hu, Bool.and_eq_true, decide_eq_true_eq, Option.any_eq_true] at h
    obtain ⟨⟨w, hw, uv, huv, hok⟩, k, h4, h5⟩ := h
    obtain ⟨g1, g2, g3, g4, g5⟩ := wOk_spec hok
    exact .inr ⟨w_i, u_i, w, uv, getD_none_some hw, getD_none_some huv, g1, g2, g3, g4, g5, .inr ⟨uS, k, hu, h4, h5⟩⟩

theorem normOk_spec {mu : MatchUp ℚ Int} (hwf : mu.WF) (h : normOk mu = true) : mu.Normalisable := by
  unfold normOk at h
  simp only [Bool.and_eq_true, decide_eq_true_eq, List.all_eq_true] at h
  obtain ⟨⟨⟨h1, h2⟩, h3⟩, h4⟩ := h
  refine ⟨hwf, h1, h2, ?_, h4⟩
  intro b n u hu hn
  exact blockOk_spec (h3 (u, n) (List.mem_of_getElem? (by rw [List.getElem?_zip_eq_some]; exact ⟨hu, hn⟩)))

theorem check_ok' {β : Type} {x : Py β} (p : β → Bool)
    (h : (match x with | .ok b => p b | .error _ => false) = true) : ∃ b, x = .ok b ∧ p b = true := by
  cases x with
  | error e => cases h
  | ok b => exact ⟨b, rfl, h⟩

/-- The rolling-average file satisfies the hypotheses of C23-C27: all four uncertainty types, overlapping W rows, two systematic effects. -/
theorem rolling_normalisable : ∃ mu, openMatchUp qenv [rolling] = .ok mu ∧ mu.Normalisable ∧ mu.values.length = 12 ∧
    mu.unc.map (fun u => (u.unc.typeID, u.uS_i)) = [(1, none), (3, none), (2, some 1), (4, some 2)] := by
  obtain ⟨mu, h1, h2⟩ := check_ok' (x := openMatchUp qenv [rolling]) (fun mu => normOk mu && decide (mu.values.length = 12) &&
    decide (mu.unc.map (fun u => (u.unc.typeID, u.uS_i)) = [(1, none), (3, none), (2, some 1), (4, some 2)])) (by decide +kernel)
  simp only [Bool.and_eq_true, decide_eq_true_eq] at h2
  exact ⟨mu, h1, normOk_spec (qfile_wf h1) h2.1.1, h2.1.2, h2.2⟩

/-- Open, transform and un-transform one file. -/
def roundTrip (d : Dataset ℚ) : Py (MatchUp ℚ Int × MatchUp ℚ Int) := do
  let mu ← openMatchUp qenv [d]
  let nm ← transformRun mu
  let mu' ← transformReverse nm
  pure (mu, mu')

theorem roundTrip_ok {d : Dataset ℚ} {p : MatchUp ℚ Int × MatchUp ℚ Int} (h : roundTrip d = .ok p) :
    ∃ nm, openMatchUp qenv [d] = .ok p.1 ∧ transformRun p.1 = .ok nm ∧ transformReverse nm = .ok p.2 := by
  obtain ⟨mu, h1, h⟩ := bind_ok.1 h
  obtain ⟨nm, h2, h⟩ := bind_ok.1 h
  obtain ⟨mu', h3, h⟩ := bind_ok.1 h
  rw [pure_ok] at h
  subst h
  exact ⟨nm, h1, h2, h3⟩

end Fixture

/-- **C24 fails** for a W matrix with a row all of whose inputs occur in earlier rows (weights 1; 1; ½ ½, all rows summing to one): the third
match-up of the averaged blocks is replaced by the average of the first two. -/
theorem C24_fails_covered_row : ∃ mu nm mu', openMatchUp Fixture.qenv [Fixture.qfile [0, 1, 2, 4] [0, 1, 0, 1] [1, 1, 1/2, 1/2] [1, 1]] = .ok mu ∧
    transformRun mu = .ok nm ∧ transformReverse nm = .ok mu' ∧ mu'.idx = mu.idx ∧
    mu.getVariableData 1 "B" (.num 1) = .ok [50, 51, 54] ∧ mu'.getVariableData 1 "B" (.num 1) = .ok [50, 51, 101/2] := by
  obtain ⟨p, h1, h2⟩ := Fixture.check_ok' (x := Fixture.roundTrip (Fixture.qfile [0, 1, 2, 4] [0, 1, 0, 1] [1, 1, 1/2, 1/2] [1, 1]))
    (fun p => decide (p.2.idx = p.1.idx) && (p.1.getVariableData 1 "B" (.num 1)).toOption.any (fun v => decide (v = [50, 51, 54])) &&
      (p.2.getVariableData 1 "B" (.num 1)).toOption.any (fun v => decide (v = [50, 51, 101/2]))) (by decide +kernel)
  obtain ⟨nm, a, b, c⟩ := Fixture.roundTrip_ok h1
  simp only [Bool.and_eq_true, decide_eq_true_eq, Option.any_eq_true] at h2
  obtain ⟨⟨h2, v, hv, hv'⟩, w, hw, hw'⟩ := h2
  subst hv' hw'
  have key : ∀ {x : Py (List ℚ)} {y : List ℚ}, x.toOption = some y → x = .ok y := by
    intro x y h
    cases x with
    | error e => cases h
    | ok z => cases h; rfl
  exact ⟨p.1, nm, p.2, a, b, c, h2, key hv, key hw⟩

/-- **C24 fails** for weights that do not sum to one: the averaged block is scaled by the sum of the weights. -/
theorem C24_fails_weights : ∃ mu nm mu', openMatchUp Fixture.qenv [Fixture.qfile [0, 1, 2, 3] [0, 1, 2] [1, 1/2, 2] [1, 1, 1]] = .ok mu ∧
    transformRun mu = .ok nm ∧ transformReverse nm = .ok mu' ∧ mu'.idx = mu.idx ∧
    mu.getVariableData 1 "B" (.num 1) = .ok [50, 51, 54] ∧ mu'.getVariableData 1 "B" (.num 1) = .ok [50, 51/2, 108] := by
  obtain ⟨p, h1, h2⟩ := Fixture.check_ok' (x := Fixture.roundTrip (Fixture.qfile [0, 1, 2, 3] [0, 1, 2] [1, 1/2, 2] [1, 1, 1]))
    (fun p => decide (p.2.idx = p.1.idx) && (p.1.getVariableData 1 "B" (.num 1)).toOption.any (fun v => decide (v = [50, 51, 54])) &&
      (p.2.getVariableData 1 "B" (.num 1)).toOption.any (fun v => decide (v = [50, 51/2, 108]))) (by decide +kernel)
  obtain ⟨nm, a, b, c⟩ := Fixture.roundTrip_ok h1
  simp only [Bool.and_eq_true, decide_eq_true_eq, Option.any_eq_true] at h2
  obtain ⟨⟨h2, v, hv, hv'⟩, w, hw, hw'⟩ := h2
  subst hv' hw'
  have key : ∀ {x : Py (List ℚ)} {y : List ℚ}, x.toOption = some y → x = .ok y := by
    intro x y h
    cases x with
    | error e => cases h
    | ok z => cases h; rfl
  exact ⟨p.1, nm, p.2, a, b, c, h2, key hv, key hw⟩


/-- The numbering hypotheses of C25-C27 hold for every opened match-up. -/
theorem opened_numbered {α δ : Type} [Zero α] [DecidableEq α] (env : ReadEnv α δ) (ds : List (Dataset α)) (hc : ConsistentFiles ds)
    (mu : MatchUp α δ) (h : openMatchUp env ds = .ok mu) :
    mu.original_idx = mu.idx ∧
    (∀ u ∈ mu.unc, u.uS_i ≠ none ↔ u.unc.typeID = 2 ∨ u.unc.typeID = 4) ∧
    (∀ u ∈ mu.unc, ∀ k, u.uS_i = some k → 1 ≤ k ∧ (u.unc.typeID = 2 ∨ u.unc.typeID = 4)) ∧
    (∃ n, ∀ k, (∃ u ∈ mu.unc, u.uS_i = some k) ↔ 1 ≤ k ∧ k ≤ n) ∧
    (∀ (i j : Nat) (u v : UncBlock α) (a b : Nat), mu.unc[i]? = some u → mu.unc[j]? = some v → u.uS_i = some a → v.uS_i = some b →
      (a = b ↔ mu.idx.n_sensor[i]? = mu.idx.n_sensor[j]? ∧ mu.idx.n_cov[i]? = mu.idx.n_cov[j]?)) := by
  obtain ⟨_, h2, h3, n, h4⟩ := C08_systematic_numbering env ds hc mu h
  have h2' : ∀ u ∈ mu.unc, u.uS_i ≠ none ↔ u.unc.typeID = 2 ∨ u.unc.typeID = 4 := by
    intro u hu
    obtain ⟨i, hi⟩ := List.mem_iff_getElem?.1 hu
    exact h2 i u hi
  refine ⟨?_, h2', ?_, ⟨n, h4⟩, h3⟩
  · unfold openMatchUp at h
    simp only [bind_ok, pure_ok] at h
    obtain ⟨_, _, _, _, _, _, _, _, _, _, _, _, _, _, _, _, _, _, _, _, _, _, h⟩ := h
    subst h; rfl
  · intro u hu k hk
    exact ⟨((h4 k).1 ⟨u, hu, hk⟩).1, (h2' u hu).1 (by rw [hk]; simp)⟩

/-- A concrete case of C26/C27: all variables of the transformed rolling-average file raised by one; both un-normalisations in the solver give
the two covariates of sensor B as `reverse` does. -/
theorem C27_case : ∃ mu nm est cols, openMatchUp Fixture.qenv [Fixture.rolling] = .ok mu ∧ transformRun mu = .ok nm ∧
    transformReverse { nm with values := nm.values.map (· + 1) } = .ok est ∧
    unconvertXs nm.w_matrices nm.u_matrices (nm.values.map (· + 1) ++ [7, 8]) nm.unc nm.idx 1 1 = .ok cols ∧
    mu.idx.sensor_ms[1]? = some 2 ∧ (1, 1, 1) ∈ mu.idx.blocks ∧ (1, 1, 2) ∈ mu.idx.blocks ∧
    est.getVariableData 1 "B" (.num 1) = .ok [103/2, 107/2, 115/2] ∧ est.getVariableData 2 "B" (.num 1) = .ok [129/2, 133/2, 141/2] ∧
    cols = [[103/2, 107/2, 115/2], [129/2, 133/2, 141/2]] := by
  obtain ⟨p, h1, h2⟩ := Fixture.check_ok' (x := (do
      let mu ← openMatchUp Fixture.qenv [Fixture.rolling]
      let nm ← transformRun mu
      let est ← transformReverse { nm with values := nm.values.map (· + 1) }
      let cols ← unconvertXs nm.w_matrices nm.u_matrices (nm.values.map (· + 1) ++ [7, 8]) nm.unc nm.idx 1 1
      let v1 ← est.getVariableData 1 "B" (.num 1)
      let v2 ← est.getVariableData 2 "B" (.num 1)
      pure (mu, nm, est, cols, v1, v2) : Py (MatchUp ℚ Int × MatchUp ℚ Int × MatchUp ℚ Int × List (List ℚ) × List ℚ × List ℚ)))
    (fun p => decide (p.1.idx.sensor_ms[1]? = some 2) && decide ((1, 1, 1) ∈ p.1.idx.blocks) && decide ((1, 1, 2) ∈ p.1.idx.blocks) &&
      decide (p.2.2.2.1 = [[103/2, 107/2, 115/2], [129/2, 133/2, 141/2]]) && decide (p.2.2.2.2.1 = [103/2, 107/2, 115/2]) &&
      decide (p.2.2.2.2.2 = [129/2, 133/2, 141/2])) (by decide +kernel)
  obtain ⟨mu, g1, h1⟩ := bind_ok.1 h1
  obtain ⟨nm, g2, h1⟩ := bind_ok.1 h1
  obtain ⟨est, g3, h1⟩ := bind_ok.1 h1
  obtain ⟨cols, g4, h1⟩ := bind_ok.1 h1
  obtain ⟨v1, g5, h1⟩ := bind_ok.1 h1
  obtain ⟨v2, g6, h1⟩ := bind_ok.1 h1
  rw [pure_ok] at h1
  subst h1
  simp only [Bool.and_eq_true, decide_eq_true_eq] at h2
  obtain ⟨⟨⟨⟨⟨a1, a2⟩, a3⟩, a4⟩, a5⟩, a6⟩ := h2
  subst a5 a6
  exact ⟨mu, nm, est, cols, g1, g2, g3, g4, a1, a2, a3, g5, g6, a4⟩

end Verif
