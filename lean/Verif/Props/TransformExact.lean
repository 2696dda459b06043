import Verif.Lemmas.TransformConv
import Verif.Props.Transform
/-
Property C24, exactly: the round trip through normalised variables returns all values if and only if every W matrix in use can be solved row by row.
-/
set_option autoImplicit false
namespace Verif
variable {α δ : Type} [Field α]

/-- After a round trip, an averaged block holds the averages of the inputs chosen for it. -/
theorem roundtrip_averaged {mu nm mu' : MatchUp α δ} (hwf : mu.WF) (ho : mu.original_idx = mu.idx) (hrun : transformRun mu = .ok nm)
    (hrev : transformReverse nm = .ok mu') {b n w_i u_i : Nat} {u : UncBlock α} {w : CSR α} {uv : List α} (hu : mu.unc[b]? = some u)
    (hm : mu.idx.N_var[b]? = some n) (hw : mu.w_matrices[w_i]? = some (some w)) (huv : mu.u_matrices[u_i]? = some (some uv))
    (hsh : w.Shape) (hr : w.nrows = n) (hul : uv.length = w.ncols) (h0 : ∀ a ∈ uv, a ≠ 0)
    (h : u.unc = .structured w_i u_i ∨ ∃ uS k, u.unc = .structuredSystematic w_i u_i uS ∧ u.uS_i = some k ∧ 1 ≤ k) :
    ∃ v, normRows w uv (slice mu.values (mu.idx.N_var.take b).sum ((mu.idx.N_var.take b).sum + n)) = .ok v ∧
      csrDot w (List.zipWith (· * ·) uv v) = .ok (slice mu'.values (mu.idx.N_var.take b).sum ((mu.idx.N_var.take b).sum + n)) := by
  obtain ⟨N, nS, hf⟩ := transformRun_facts hwf hrun
  obtain ⟨m', hm', hsz⟩ := hf.sizes b n u hu hm
  obtain ⟨d, hd, _, hdval⟩ := hf.block b n m' u hu hm hm'
  have hs := take_succ_sum _ hm
  have hbl : b < mu.idx.N_var.length := (List.getElem?_eq_some_iff.1 hm).1
  have hle := take_sum_le_take_sum mu.idx.N_var (show b + 1 ≤ mu.idx.N_var.length by omega)
  rw [List.take_length] at hle
  set x := slice mu.values (mu.idx.N_var.take b).sum ((mu.idx.N_var.take b).sum + n) with hx
  have hxl : x.length = n := by rw [hx, slice_length, hwf.values]; omega
  have hd' : normRows w uv x = .ok d := by
    have : ∀ z, z = Unc.structured w_i u_i ∨ (∃ uS, z = .structuredSystematic w_i u_i uS) → normBlock mu z x = .ok d → normRows w uv x = .ok d := by
      intro z hz hd
      rcases hz with rfl | ⟨uS, rfl⟩
      all_goals
        obtain ⟨w', h1, hd⟩ := bind_ok.1 hd
        rw [getSlot_ok hw] at h1; cases h1
        obtain ⟨u', h2, hd⟩ := bind_ok.1 hd
        rw [getSlot_ok huv] at h2; cases h2
        exact hd
    exact this u.unc (by tauto) hd
  have hdl : d.length = uv.length := by
    obtain ⟨v, h1, h2⟩ := normRows_total hsh hul h0 (hxl.trans hr.symm)
    rw [hd'] at h1; cases h1; exact h2
  have hm'' : m' = uv.length := by
    have : ∀ z, z = Unc.structured w_i u_i ∨ (∃ uS, z = .structuredSystematic w_i u_i uS) → normSize mu z n = .ok m' → m' = uv.length := by
      intro z hz hd
      rcases hz with rfl | ⟨uS, rfl⟩
      all_goals
        obtain ⟨u', h2, hd⟩ := bind_ok.1 hd
        rw [getSlot_ok huv] at h2; cases h2
        exact (pure_ok.1 hd).symm
    exact this u.unc (by tauto) hsz
  obtain ⟨r1, r2, r3⟩ := hf.reads
  obtain ⟨n', last, hn', hlast, hidx, hvl, _, _, _, _, _, hblk⟩ := transformReverse_facts (N0 := mu.idx.N_var) (by rw [hf.orig, ho, hwf.idx.bounds])
    (by rw [hf.orig, ho]) r1 (by rw [hf.unc, hwf.unc, hwf.idx.len]) (by rw [r2, hf.len, hf.unc]) hrev
  rw [hf.unc, hf.sys] at hn'; cases hn'
  rw [r3] at hlast; cases hlast
  obtain ⟨e, he, _, hev, _⟩ := hblk b n m' u (by rw [hf.unc]; exact hu) hm (by rw [r2]; exact hm')
  rw [r2, hdval (hdl.trans hm''.symm), hf.ws, hf.us] at he
  have hdot : csrDot w (List.zipWith (· * ·) uv d) = .ok e := by
    unfold revBlock at he
    rcases h with h | ⟨uS, k, h, hk, hk1⟩
    · rw [h] at he
      obtain ⟨w', h1, he⟩ := bind_ok.1 he
      rw [getSlot_ok hw] at h1; cases h1
      obtain ⟨u', h2, he⟩ := bind_ok.1 he
      rw [getSlot_ok huv] at h2; cases h2
      obtain ⟨p, h3, he⟩ := bind_ok.1 he
      rw [npZip_eq hdl.symm] at h3; cases h3
      exact he
    · rw [h, hk] at he
      obtain ⟨w', h1, he⟩ := bind_ok.1 he
      rw [getSlot_ok hw] at h1; cases h1
      obtain ⟨u', h2, he⟩ := bind_ok.1 he
      rw [getSlot_ok huv] at h2; cases h2
      obtain ⟨s, h4, he⟩ := bind_ok.1 he
      obtain ⟨k', hk', hkn⟩ := (sysNums_ok hf.sys).1 u (List.mem_of_getElem? hu) (by rw [h]; exact .inr rfl)
      rw [hk] at hk'; cases hk'
      change pyGetInt nm.values (((N.sum + nS : Nat) : Int) - nS - 1 + k) = .ok s at h4
      rw [sys_slot hk1 hkn hf.vlen, pyGet_ok, hf.tail _ (by omega) (by omega)] at h4
      injection h4 with h4
      subst h4
      obtain ⟨p, h3, he⟩ := bind_ok.1 he
      rw [npZip_eq hdl] at h3; cases h3
      have hmap : (List.zipWith (· * ·) d uv).map (· + 0 * uS) = List.zipWith (· * ·) uv d := by
        rw [List.zipWith_comm]
        simp [mul_comm]
      rw [hmap] at he
      exact he
  have hel : e.length = n := by
    unfold csrDot at hdot
    rw [if_pos (by rw [List.length_zipWith, hdl, Nat.min_self, hul])] at hdot
    injection hdot with hdot
    rw [← hdot]; simp [hr]
  exact ⟨d, hd', by rw [hdot, hev hel]⟩

/-- **C24 (exact).** Let every block have random uncertainties, or be averaged by some W matrix, no uncertainty being zero. Then `run` followed by
`reverse` returns the values, whatever the values are, if and only if every W matrix in use can be solved row by row: each row either uses no
column of an earlier row and has weights summing to one, or also uses columns of earlier rows, and its new weights do not sum to zero. -/
theorem C24_exact {mu : MatchUp α δ} (h : mu.Transformable) :
    (∀ vs : List α, vs.length = mu.values.length →
      ∃ nm mu', transformRun { mu with values := vs } = .ok nm ∧ transformReverse nm = .ok mu' ∧ mu'.values = vs) ↔
    (∀ (b n : Nat) (u : UncBlock α) (w : CSR α), mu.unc[b]? = some u → mu.idx.N_var[b]? = some n → u.AveragedBy mu n w → w.Sequential) := by
  have hwf : ∀ vs : List α, vs.length = mu.values.length → ({ mu with values := vs } : MatchUp α δ).WF := fun vs hl =>
    { h.wf with values := hl.trans h.wf.values }
  constructor
  · intro hall b n u w hu hm hk
    obtain ⟨w_i, u_i, uv, hw, huv, hsh, hr, hul, h0, hk'⟩ := hk
    apply not_sequential (u := uv) hsh hul h0
    intro x hx
    have hs := take_succ_sum _ hm
    have hbl : b < mu.idx.N_var.length := (List.getElem?_eq_some_iff.1 hm).1
    have hle := take_sum_le_take_sum mu.idx.N_var (show b + 1 ≤ mu.idx.N_var.length by omega)
    rw [List.take_length] at hle
    set s := (mu.idx.N_var.take b).sum with hsdef
    have hvl := h.wf.values
    set vs := List.replicate s (0 : α) ++ x ++ List.replicate (mu.values.length - s - n) 0 with hvs
    have hlv : vs.length = mu.values.length := by simp [hvs, hx, hr]; omega
    obtain ⟨nm, mu', h1, h2, h3⟩ := hall vs hlv
    obtain ⟨v, h6, h7⟩ := roundtrip_averaged (mu := { mu with values := vs }) (hwf vs hlv) h.orig h1 h2 hu hm hw huv hsh hr hul h0 hk'
    have hsl : slice vs s (s + n) = x := by
      unfold slice
      rw [hvs, List.append_assoc, List.drop_append_of_le_length (by simp), Nat.add_sub_cancel_left]
      rw [List.drop_of_length_le (by simp), List.nil_append, List.take_append_of_le_length (by omega), List.take_of_length_le (by omega)]
    refine ⟨v, ?_, ?_⟩
    · have : slice ({ mu with values := vs } : MatchUp α δ).values s (s + n) = x := hsl
      rw [← this]; exact h6
    · rw [h3] at h7
      rw [← hsl]; exact h7
  · intro hseq vs hl
    have hn : ({ mu with values := vs } : MatchUp α δ).Normalisable := by
      refine ⟨hwf vs hl, h.pairs, h.orig, ?_, h.unck⟩
      intro b n u hu hm
      rcases h.blocks b n u hu hm with hr | ⟨w, hw⟩
      · exact .inl hr
      · have hsq := hseq b n u w hu hm hw
        obtain ⟨w_i, u_i, uv, a1, a2, a3, a4, a5, a6, a7⟩ := hw
        exact .inr ⟨w_i, u_i, w, uv, a1, a2, a3, hsq, a4, a5, a6, a7⟩
    obtain ⟨nm, mu', h1, h2, h3, _⟩ := C24_roundtrip_partial hn
    exact ⟨nm, mu', h1, h2, h3⟩

/-- **C24 (no failure).** With any W matrices, `run` and `reverse` both succeed: values that are not returned are changed silently. (Where new
weights sum to zero the code divides by zero, which numpy only warns of; in the model the quotient is then 0.) -/
theorem C24_always_runs {mu : MatchUp α δ} (h : mu.Transformable) :
    ∃ nm mu', transformRun mu = .ok nm ∧ transformReverse nm = .ok mu' := by
  have hwf := h.wf
  have hvar : ∀ b : Nat, b < mu.unc.length → ∃ n : Nat, mu.idx.N_var[b]? = some n := by
    intro b hb
    exact ⟨_, List.getElem?_eq_getElem (by rw [hwf.idx.len, ← hwf.unc]; exact hb)⟩
  -- the slice of a block has the length of the block
  have hxl : ∀ (b n : Nat), mu.idx.N_var[b]? = some n →
      (slice mu.values (mu.idx.N_var.take b).sum ((mu.idx.N_var.take b).sum + n)).length = n := by
    intro b n hn
    have hs := take_succ_sum _ hn
    have hb : b < mu.idx.N_var.length := (List.getElem?_eq_some_iff.1 hn).1
    have hle := take_sum_le_take_sum mu.idx.N_var (show b + 1 ≤ mu.idx.N_var.length by omega)
    rw [List.take_length] at hle
    rw [slice_length, hwf.values]; omega
  -- per block, with a dummy array of zeros for the systematic errors
  have hblk : ∀ (b n : Nat) (u : UncBlock α), mu.unc[b]? = some u → mu.idx.N_var[b]? = some n →
      ∃ d m, normBlock mu u.unc (slice mu.values (mu.idx.N_var.take b).sum ((mu.idx.N_var.take b).sum + n)) = .ok d ∧
        normSize mu u.unc n = .ok m ∧ d.length = m ∧ ∀ (values : List α) (last n_uS : Nat),
        (∀ k : Nat, u.uS_i = some k → 1 ≤ k → u.unc.typeID = 2 ∨ u.unc.typeID = 4 → pyGetInt values ((last : Int) - n_uS - 1 + k) = .ok 0) →
        ∃ e, revBlock mu.w_matrices mu.u_matrices last n_uS values u d = .ok e ∧ e.length = n := by
    intro b n u hu hn
    rcases h.blocks b n u hu hn with hkind | ⟨w, w_i, u_i, uv, hw, huv, hsh, hr, hul, h0, hk⟩
    · obtain ⟨uR, hl, h0, hk⟩ := hkind
      set x := slice mu.values (mu.idx.N_var.take b).sum ((mu.idx.N_var.take b).sum + n) with hx
      have hxn := hxl b n hn
      rw [← hx] at hxn
      refine ⟨List.zipWith (· / ·) x uR, n, ?_, ?_, by simp [hxn, hl], ?_⟩
      · rcases hk with hk | ⟨uS, k, hk, _⟩ <;> rw [hk] <;> exact npZip_eq (hxn.trans hl.symm)
      · rcases hk with hk | ⟨uS, k, hk, _⟩ <;> rw [hk] <;> rfl
      · intro values last n_uS hz
        have hkind : u.Random x.length ∨ u.Averaged mu x.length := .inl ⟨uR, hl.trans hxn.symm, h0, by rwa [hxn]⟩
        obtain ⟨d', m', h1', h2', h3', h4'⟩ := block_roundtrip (mu := mu) hkind hz
        have : normBlock mu u.unc x = .ok (List.zipWith (· / ·) x uR) := by
          rcases hk with hk | ⟨uS, k, hk, _⟩ <;> rw [hk] <;> exact npZip_eq (hxn.trans hl.symm)
        rw [this] at h1'; cases h1'
        exact ⟨x, h4', hxn⟩
    · obtain ⟨d, hd, hdl⟩ := normRows_total (x := slice mu.values (mu.idx.N_var.take b).sum ((mu.idx.N_var.take b).sum + n)) hsh hul h0
        ((hxl b n hn).trans hr.symm)
      have hdot : ∀ z : List α, z.length = w.ncols → ∃ e, csrDot w z = .ok e ∧ e.length = n := by
        intro z hz
        exact ⟨_, by unfold csrDot; rw [if_pos hz], by simp [hr]⟩
      have hnb : ∀ z, z = Unc.structured w_i u_i ∨ (∃ uS, z = .structuredSystematic w_i u_i uS) →
          normBlock mu z (slice mu.values (mu.idx.N_var.take b).sum ((mu.idx.N_var.take b).sum + n)) = .ok d ∧ normSize mu z n = .ok uv.length := by
        intro z hz
        rcases hz with rfl | ⟨uS, rfl⟩ <;>
        exact ⟨bind_ok.2 ⟨w, getSlot_ok hw, bind_ok.2 ⟨uv, getSlot_ok huv, hd⟩⟩, bind_ok.2 ⟨uv, getSlot_ok huv, rfl⟩⟩
      refine ⟨d, uv.length, (hnb u.unc (by tauto)).1, (hnb u.unc (by tauto)).2, hdl, ?_⟩
      intro values last n_uS hz
      rcases hk with hk | ⟨uS, k, hk, hk0, hk1⟩
      · obtain ⟨e, he, hel⟩ := hdot (List.zipWith (· * ·) uv d) (by simp [hdl, hul])
        refine ⟨e, ?_, hel⟩
        unfold revBlock
        rw [hk]
        exact bind_ok.2 ⟨w, getSlot_ok hw, bind_ok.2 ⟨uv, getSlot_ok huv, bind_ok.2 ⟨_, npZip_eq hdl.symm, he⟩⟩⟩
      · have h00 := hz k hk0 hk1 (by rw [hk]; exact .inr rfl)
        obtain ⟨e, he, hel⟩ := hdot ((List.zipWith (· * ·) d uv).map (· + 0 * uS)) (by simp [hdl, hul])
        refine ⟨e, ?_, hel⟩
        unfold revBlock
        rw [hk, hk0]
        exact bind_ok.2 ⟨w, getSlot_ok hw, bind_ok.2 ⟨uv, getSlot_ok huv, bind_ok.2 ⟨0, h00, bind_ok.2 ⟨_, npZip_eq hdl, he⟩⟩⟩⟩
  -- run
  obtain ⟨n, hn⟩ := numSys_total (unc := mu.unc) (by
    intro u hu ht
    obtain ⟨b, hb, hbu⟩ := List.mem_iff_getElem.1 hu
    obtain ⟨m, hm⟩ := hvar b hb
    rcases h.blocks b m u (by rw [List.getElem?_eq_getElem hb, hbu]) hm with hr | ⟨w, w_i, u_i, uv, _, _, _, _, _, _, hk⟩
    · obtain ⟨k, hk, _⟩ := kinds_numbered (mu := mu) (.inl hr) ht
      exact ⟨k, hk⟩
    · rcases hk with hk | ⟨uS, k, _, hk, _⟩
      · rw [hk] at ht; simp [Unc.typeID] at ht
      · exact ⟨k, hk⟩)
  have hN : ∃ N, (mu.idx.N_var.zip mu.unc).mapM (fun nu => normSize mu nu.2.unc nu.1) = .ok N := by
    refine ⟨_, mapM_ok_of (g := fun nu => match normSize mu nu.2.unc nu.1 with | .ok m => m | .error _ => 0) ?_⟩
    rintro ⟨m, u⟩ hmu
    obtain ⟨b, hb⟩ := List.mem_iff_getElem?.1 hmu
    rw [List.getElem?_zip_eq_some] at hb
    obtain ⟨d, m', _, h2, _⟩ := hblk b m u hb.2 hb.1
    simp only at h2 ⊢
    rw [h2]
  obtain ⟨N, hN⟩ := hN
  have hNl : N.length = mu.unc.length := by
    rw [(mapM_ok_get hN).1]; simp [hwf.idx.len, hwf.unc]
  obtain ⟨hst, _, _⟩ := bumpLast_prefixSums N n
  have hrun : ∃ nm, transformRun mu = .ok nm := by
    obtain ⟨vals, hv⟩ := writeBlocks_total (init := List.replicate (N.sum + n) (0 : α)) (data := mu.unc.zipIdx.map fun ui => (do
        let istart ← pyGet mu.idx.idx ui.2
        let size ← pyGet mu.idx.N_var ui.2
        normBlock mu ui.1.unc (slice mu.values istart (istart + size)) : Py (List α))) hst (by simp [hNl]) (by simp) (by
      intro b m r hr hm
      rw [List.getElem?_map, List.getElem?_zipIdx] at hr
      cases hu : mu.unc[b]? with
      | none => rw [hu] at hr; simp at hr
      | some u =>
        rw [hu] at hr
        simp only [Option.map_some, Option.some.injEq, Nat.zero_add] at hr
        have hb : b < mu.unc.length := (List.getElem?_eq_some_iff.1 hu).1
        obtain ⟨n0, hn0⟩ := hvar b hb
        obtain ⟨d, m', h1, h2, h3, _⟩ := hblk b n0 u hu hn0
        obtain ⟨m2, hm2, hm2'⟩ := (mapM_ok_get hN).2 b (n0, u) (by rw [List.getElem?_zip_eq_some]; exact ⟨hn0, hu⟩)
        simp only at hm2
        rw [h2] at hm2; cases hm2
        rw [hm] at hm2'; cases hm2'
        refine ⟨d, ?_, h3⟩
        rw [← hr]
        refine bind_ok.2 ⟨_, ?_, bind_ok.2 ⟨n0, pyGet_ok.2 hn0, h1⟩⟩
        rw [hwf.idx.bounds, pyGet_prefixSums _ (by rw [hwf.idx.len, ← hwf.unc]; omega)])
    have hks := scaleKs_eq (f := (· / · : α → α → α)) hwf.idx.series h.pairs hwf.unck hwf.ks
    exact ⟨_, bind_ok.2 ⟨N, hN, bind_ok.2 ⟨n, hn, bind_ok.2 ⟨_, bumpLast_last N n, bind_ok.2 ⟨vals, hv, bind_ok.2 ⟨_, hks, rfl⟩⟩⟩⟩⟩⟩
  obtain ⟨nm, hrun⟩ := hrun
  obtain ⟨N', n', hf⟩ := transformRun_facts hwf hrun
  obtain ⟨r1, r2, r3⟩ := hf.reads
  have hrev : ∃ mu', transformReverse nm = .ok mu' := by
    obtain ⟨vals, hv⟩ := writeBlocks_total (init := List.replicate mu.idx.N_var.sum (0 : α)) (data := nm.unc.zipIdx.map fun ui => (do
        let istart_i ← pyGet nm.idx.idx ui.2
        let size_i ← pyGet nm.idx.N_var ui.2
        revBlock nm.w_matrices nm.u_matrices (N'.sum + n') n' nm.values ui.1 (slice nm.values istart_i (istart_i + size_i)) : Py (List α)))
      (starts_prefixSums mu.idx.N_var) (by simp [hf.unc, hwf.unc, hwf.idx.len]) (by simp) (by
      intro b m r hr hm
      rw [List.getElem?_map, List.getElem?_zipIdx, hf.unc] at hr
      cases hu : mu.unc[b]? with
      | none => rw [hu] at hr; simp at hr
      | some u =>
        rw [hu] at hr
        simp only [Option.map_some, Option.some.injEq, Nat.zero_add] at hr
        obtain ⟨d, m', h1, h2, h3, h4⟩ := hblk b m u hu hm
        obtain ⟨m2, hm2, hsz⟩ := hf.sizes b m u hu hm
        rw [h2] at hsz; cases hsz
        obtain ⟨d', e1, _, e3⟩ := hf.block b m m' u hu hm hm2
        rw [h1] at e1; cases e1
        obtain ⟨e0, hrb, he0⟩ := h4 nm.values (N'.sum + n') n' (by
          intro k hk hk1 ht
          obtain ⟨k', hk', hkn⟩ := (sysNums_ok hf.sys).1 u (List.mem_of_getElem? hu) ht
          rw [hk] at hk'; cases hk'
          rw [sys_slot hk1 hkn hf.vlen, pyGet_ok]
          exact hf.tail _ (by omega) (by omega))
        refine ⟨e0, ?_, he0⟩
        rw [← hr]
        have hbN : b < N'.length := (List.getElem?_eq_some_iff.1 hm2).1
        refine bind_ok.2 ⟨_, pyGet_ok.2 (r1 b (by rw [r2]; exact hbN)), bind_ok.2 ⟨m', pyGet_ok.2 (by rw [r2]; exact hm2), ?_⟩⟩
        rw [r2, e3 h3, hf.ws, hf.us]
        exact hrb)
    have hks1 := hf.ks
    rw [scaleKs_eq hwf.idx.series h.pairs hwf.unck hwf.ks] at hks1
    have e : List.zipWith (· / ·) mu.ks mu.unck.flatten = nm.ks := by injection hks1
    have hfl : mu.unck.flatten.length = mu.idx.Nm.sum := by rw [List.length_flatten, hwf.unck]
    have hks := scaleKs_eq (f := (· * · : α → α → α)) (ks := nm.ks) hwf.idx.series h.pairs hwf.unck (by rw [← e]; simp [hwf.ks, hfl])
    refine ⟨_, bind_ok.2 ⟨mu.idx.N_var.sum, ?_, bind_ok.2 ⟨n', by rw [hf.unc]; exact hf.sys, bind_ok.2 ⟨_, pyGet_ok.2 r3, bind_ok.2 ⟨vals, ?_,
      bind_ok.2 ⟨_, by rw [hf.orig, h.orig, hf.unck]; exact hks, rfl⟩⟩⟩⟩⟩⟩
    · rw [hf.orig, h.orig, hwf.idx.bounds, prefixSums_length, pyGet_prefixSums _ (by omega), Nat.add_sub_cancel, List.take_length]
    · rw [hf.orig, h.orig, hwf.idx.bounds]; exact hv
  obtain ⟨mu', hrev⟩ := hrev
  exact ⟨nm, mu', hrun, hrev⟩

theorem MatchUp.Normalisable.transformable {mu : MatchUp α δ} (h : mu.Normalisable) : mu.Transformable := by
  refine ⟨h.wf, h.pairs, h.orig, ?_, h.unck⟩
  intro b n u hu hn
  rcases h.blocks b n u hu hn with hr | ⟨w_i, u_i, w, uv, a1, a2, a3, a4, a5, a6, a7, a8⟩
  · exact .inl hr
  · exact .inr ⟨w, w_i, u_i, uv, a1, a2, a3, a5, a6, a7, a8⟩

namespace Fixture

/-- As `wOk`, `blockOk`, `normOk`, without the condition on the weights. -/
def wShapeOk (w : CSR ℚ) (uv : List ℚ) (n : Nat) : Bool :=
  decide (w.indptr.length = w.nrows + 1) && decide (w.data.length = w.indices.length) && w.indices.all (fun c => decide (c < w.ncols)) &&
  decide (w.nrows = n) && decide (uv.length = w.ncols) && uv.all (fun a => decide (a ≠ 0))

def blockShapeOk (mu : MatchUp ℚ Int) (u : UncBlock ℚ) (n : Nat) : Bool :=
  match u.unc with
  | .independent _ | .systematic _ _ => blockOk mu u n
  | .structured w_i u_i => (mu.w_matrices.getD w_i none).any fun w => (mu.u_matrices.getD u_i none).any fun uv => wShapeOk w uv n
  | .structuredSystematic w_i u_i _ => ((mu.w_matrices.getD w_i none).any fun w => (mu.u_matrices.getD u_i none).any fun uv => wShapeOk w uv n) &&
      (u.uS_i.any fun k => decide (1 ≤ k))

def transOk (mu : MatchUp ℚ Int) : Bool :=
  decide (mu.idx.Im.length = mu.idx.Nm.length) && decide (mu.original_idx = mu.idx) &&
  ((mu.unc.zip mu.idx.N_var).all fun un => blockShapeOk mu un.1 un.2) && mu.unck.all (fun u => u.all fun a => decide (a ≠ 0))

theorem wShapeOk_spec {w : CSR ℚ} {uv : List ℚ} {n : Nat} (h : wShapeOk w uv n = true) :
    w.Shape ∧ w.nrows = n ∧ uv.length = w.ncols ∧ ∀ a ∈ uv, a ≠ 0 := by
  unfold wShapeOk at h
  simp only [Bool.and_eq_true, decide_eq_true_eq, List.all_eq_true] at h
  obtain ⟨⟨⟨⟨⟨h1, h2⟩, h3⟩, h5⟩, h6⟩, h7⟩ := h
  exact ⟨⟨h1, h2, h3⟩, h5, h6, h7⟩

theorem blockShapeOk_spec {mu : MatchUp ℚ Int} {u : UncBlock ℚ} {n : Nat} (h : blockShapeOk mu u n = true) :
    u.Random n ∨ ∃ w, u.AveragedBy mu n w := by
  unfold blockShapeOk at h
  cases hu : u.unc with
  | independent uR =>
    simp only [hu] at h
    rcases blockOk_spec h with h | ⟨_, _, _, _, _, _, _, _, _, _, _, h | ⟨_, _, h, _⟩⟩
    · exact .inl h
    all_goals rw [hu] at h; cases h
  | systematic uR uS =>
    simp only [hu] at h
    rcases blockOk_spec h with h | ⟨_, _, _, _, _, _, _, _, _, _, _, h | ⟨_, _, h, _⟩⟩
    · exact .inl h
    all_goals rw [hu] at h; cases h
  | structured w_i u_i =>
    simp only [hu, Option.any_eq_true] at h
    obtain ⟨w, hw, uv, huv, hok⟩ := h
    obtain ⟨g1, g3, g4, g5⟩ := wShapeOk_spec hok
    exact .inr ⟨w, w_i, u_i, uv, getD_none_some hw, getD_none_some huv, g1, g3, g4, g5, .inl hu⟩
  | structuredSystematic w_i u_i uS =>
    simp only [hu, Bool.and_eq_true, decide_eq_true_eq, Option.any_eq_true] at h
    obtain ⟨⟨w, hw, uv, huv, hok⟩, k, h4, h5⟩ := h
    obtain ⟨g1, g3, g4, g5⟩ := wShapeOk_spec hok
    exact .inr ⟨w, w_i, u_i, uv, getD_none_some hw, getD_none_some huv, g1, g3, g4, g5, .inr ⟨uS, k, hu, h4, h5⟩⟩

/-- The hypotheses of `C24_exact` hold of the match-up of `C24_fails_covered_row` (whose W matrix cannot be solved) and of `rolling` (whose can). -/
theorem covered_transformable : ∃ mu, openMatchUp qenv [qfile [0, 1, 2, 4] [0, 1, 0, 1] [1, 1, 1/2, 1/2] [1, 1]] = .ok mu ∧ mu.Transformable ∧
    mu.values.length = 12 := by
  obtain ⟨mu, h1, h2⟩ := check_ok' (x := openMatchUp qenv [qfile [0, 1, 2, 4] [0, 1, 0, 1] [1, 1, 1/2, 1/2] [1, 1]])
    (fun mu => transOk mu && decide (mu.values.length = 12)) (by decide +kernel)
  simp only [transOk, Bool.and_eq_true, decide_eq_true_eq, List.all_eq_true] at h2
  obtain ⟨⟨⟨⟨h3, h4⟩, h5⟩, h6⟩, h7⟩ := h2
  refine ⟨mu, h1, ⟨qfile_wf h1, h3, h4, ?_, h6⟩, h7⟩
  intro b n u hu hn
  exact blockShapeOk_spec (h5 (u, n) (List.mem_of_getElem? (by rw [List.getElem?_zip_eq_some]; exact ⟨hu, hn⟩)))

theorem rolling_transformable : ∃ mu, openMatchUp qenv [rolling] = .ok mu ∧ mu.Transformable := by
  obtain ⟨mu, h1, h2, _⟩ := rolling_normalisable
  exact ⟨mu, h1, h2.transformable⟩

end Fixture

end Verif
