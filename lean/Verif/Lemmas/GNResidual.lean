import Verif.Lemmas.GNReady
import Verif.Lemmas.Measurand
/-
The residual function `calc_f` of a solver-ready match-up, in closed form.
-/
set_option autoImplicit false
namespace Verif
open Finset (sum_congr)
variable {α δ : Type} [Field α]

theorem npZip_mul_comm (a b : List α) : npZip (· * ·) a b = npZip (· * ·) b a := by
  have h1 : List.zipWith (· * ·) a b = List.zipWith (· * ·) b a := by
    rw [List.zipWith_comm]; congr 1; funext x y; exact mul_comm _ _
  unfold npZip
  by_cases h : a.length = b.length
  · rw [if_pos h, if_pos h.symm, h1]
  · rw [if_neg h, if_neg (fun h' => h h'.symm)]
    rcases a with _ | ⟨x, _ | ⟨x2, a⟩⟩ <;> rcases b with _ | ⟨y, _ | ⟨y2, b⟩⟩ <;> simp [mul_comm] at h ⊢

/-- What the solver's un-normalisation returns, `reverse` returns on the same array. -/
theorem revBlock_of_unconv {ws : List (Option (CSR α))} {us : List (Option (List α))} {T n : Nat} {x v d : List α} {u : UncBlock α}
    (h : unconvBlock ws us T n x u v = .ok d) : revBlock ws us T n x u v = .ok d := by
  unfold unconvBlock at h
  unfold revBlock
  cases hu : u.unc with
  | independent uR => simpa only [hu] using h
  | systematic uR uS =>
    simp only [hu] at h ⊢
    obtain ⟨s, hs, h⟩ := bind_ok.1 h
    obtain ⟨a, ha, h⟩ := bind_ok.1 h
    exact bind_ok.2 ⟨a, ha, bind_ok.2 ⟨s, hs, h⟩⟩
  | structured w_i u_i => simpa only [hu] using h
  | structuredSystematic w_i u_i uS =>
    simp only [hu] at h ⊢
    obtain ⟨s, hs, h⟩ := bind_ok.1 h
    obtain ⟨w, hw, h⟩ := bind_ok.1 h
    obtain ⟨uv, huv, h⟩ := bind_ok.1 h
    rw [npZip_mul_comm] at h
    exact bind_ok.2 ⟨w, hw, bind_ok.2 ⟨uv, huv, bind_ok.2 ⟨s, hs, h⟩⟩⟩

theorem ent_take {x : List α} {T j : Nat} (h : j < T) : ent (x.take T) j = ent x j := by
  simp [ent, List.getD, List.getElem?_take, h]

section
variable {g : GN α δ} {ms : Evaluable α δ} {labels clabels : List String} {m n : Nat} {N : List Nat}

/-- The un-normalised value of match-up `r` of block `b` (a block of `k` match-ups) at the point `x`. -/
def GN.colAt (g : GN α δ) (T n k b : Nat) (x : List α) (r : Nat) : α := ∑ j ∈ Finset.range T, g.hd.mu.unconvM T n k b r j * ent x j

/-- Un-normalising any array of variables on the solver's layout. -/
theorem reverse_ok (h : g.Setup ms labels clabels m N n) {xs : List α} (hx : xs.length = N.sum + n) {nm : MatchUp α δ} (e1 : nm.idx = g.hd.mu.idx)
    (e2 : nm.unc = g.hd.mu.unc) (e3 : nm.w_matrices = g.hd.mu.w_matrices) (e4 : nm.u_matrices = g.hd.mu.u_matrices) (e5 : nm.values = xs)
    (e6 : nm.ks.length = ms.mu.idx.Nm.sum) (e7 : nm.original_idx = ms.mu.idx) (e8 : nm.unck = ms.mu.unck) :
    ∃ mu', transformReverse nm = .ok mu' ∧ mu'.idx = ms.mu.idx ∧ mu'.unck = ms.mu.unck ∧ (mu'.time1 = none ∧ mu'.time2 = none) ∧
      mu'.across_track_index1 = nm.across_track_index1 ∧ mu'.across_track_index2 = nm.across_track_index2 ∧
      mu'.along_track_index1 = nm.along_track_index1 ∧ mu'.along_track_index2 = nm.along_track_index2 ∧
      mu'.ks = List.zipWith (· * ·) nm.ks ms.mu.unck.flatten ∧ mu'.values.length = ms.mu.idx.N_var.sum ∧
      ∀ (b k : Nat), ms.mu.idx.N_var[b]? = some k →
        slice mu'.values (ms.mu.idx.N_var.take b).sum ((ms.mu.idx.N_var.take b).sum + k) = vector k (g.colAt (N.sum + n) n k b xs) := by
  obtain ⟨r1, r2, r3⟩ := h.facts.reads
  have hf := h.facts
  have hwf := h.ready.wf
  have hb : ∀ (b k : Nat) (u : UncBlock α), ms.mu.unc[b]? = some u → ms.mu.idx.N_var[b]? = some k → ∃ ib nb,
      nm.idx.idx[b]? = some ib ∧ nm.idx.N_var[b]? = some nb ∧
      revBlock nm.w_matrices nm.u_matrices (N.sum + n) n nm.values u (slice nm.values ib (ib + nb)) = .ok (vector k (g.colAt (N.sum + n) n k b xs)) := by
    intro b k u hu hk
    have hok := ready_block h.ready hf hk
    obtain ⟨ib, nb, u', hib, hnb, hu', hle, _⟩ := id hok
    have huu := hu'
    rw [hf.unc, hu] at hu'; cases hu'
    refine ⟨ib, nb, by rw [e1]; exact hib, by rw [e1]; exact hnb, revBlock_of_unconv ?_⟩
    rw [e3, e4, e5, unconvBlock_vector hok (by omega) (by omega) hib hnb huu, hx]
    rfl
  have hunc : nm.unc = ms.mu.unc := by rw [e2, hf.unc]
  have hst : Starts nm.idx.idx nm.idx.N_var := by rw [e1]; exact r1
  have hlast : nm.idx.idx[nm.idx.idx.length - 1]? = some (N.sum + n) := by rw [e1]; exact r3
  have hNl : nm.idx.N_var = N := by rw [e1, r2]
  obtain ⟨vals, hv⟩ := writeBlocks_total (init := List.replicate ms.mu.idx.N_var.sum (0 : α)) (data := nm.unc.zipIdx.map fun ui => (do
      let istart_i ← pyGet nm.idx.idx ui.2
      let size_i ← pyGet nm.idx.N_var ui.2
      revBlock nm.w_matrices nm.u_matrices (N.sum + n) n nm.values ui.1 (slice nm.values istart_i (istart_i + size_i)) : Py (List α)))
    (starts_prefixSums ms.mu.idx.N_var) (by simp [hunc, hwf.unc, hwf.idx.len]) (by simp) (by
    intro b k r hr hm
    rw [List.getElem?_map, List.getElem?_zipIdx, hunc] at hr
    cases hu : ms.mu.unc[b]? with
    | none => rw [hu] at hr; simp at hr
    | some u =>
      rw [hu] at hr
      simp only [Option.map_some, Option.some.injEq, Nat.zero_add] at hr
      obtain ⟨ib, nb, h1, h2, h3⟩ := hb b k u hu hm
      refine ⟨_, ?_, vector_length k (g.colAt (N.sum + n) n k b xs)⟩
      rw [← hr]
      exact bind_ok.2 ⟨_, pyGet_ok.2 h1, bind_ok.2 ⟨_, pyGet_ok.2 h2, h3⟩⟩)
  have hks := scaleKs_eq (f := (· * · : α → α → α)) (ks := nm.ks) hwf.idx.series h.ready.pairs hwf.unck e6
  have hrev : ∃ mu', transformReverse nm = .ok mu' := by
    refine ⟨_, bind_ok.2 ⟨ms.mu.idx.N_var.sum, ?_, bind_ok.2 ⟨n, by rw [hunc]; exact hf.sys,
      bind_ok.2 ⟨_, pyGet_ok.2 hlast, bind_ok.2 ⟨vals, ?_, bind_ok.2 ⟨_, by rw [e7, e8]; exact hks, rfl⟩⟩⟩⟩⟩⟩
    · rw [e7, hwf.idx.bounds, prefixSums_length, pyGet_prefixSums _ (by omega), Nat.add_sub_cancel, List.take_length]
    · rw [e7, hwf.idx.bounds]; exact hv
  obtain ⟨mu', hrev⟩ := hrev
  have hfacts := transformReverse_facts (N0 := ms.mu.idx.N_var) (by rw [e7, hwf.idx.bounds])
    (by rw [e7]) hst (by rw [hunc, hwf.unc, hwf.idx.len]) (by rw [hNl, hf.len, hunc]) hrev
  obtain ⟨n', last, hn', hlast', hidx, hvl, hks', _, _, _, hunck, hblk⟩ := hfacts
  have en : n' = n := by
    rw [hunc, hf.sys] at hn'; exact (Except.ok.inj hn').symm
  have el : last = N.sum + n := by
    rw [hlast] at hlast'; exact (Option.some.inj hlast').symm
  have hflds : (mu'.time1 = none ∧ mu'.time2 = none) ∧ mu'.across_track_index1 = nm.across_track_index1 ∧ mu'.across_track_index2 = nm.across_track_index2 ∧
      mu'.along_track_index1 = nm.along_track_index1 ∧ mu'.along_track_index2 = nm.along_track_index2 := by
    unfold transformReverse at hrev
    obtain ⟨_, _, h1⟩ := bind_ok.1 hrev
    obtain ⟨_, _, h1⟩ := bind_ok.1 h1
    obtain ⟨_, _, h1⟩ := bind_ok.1 h1
    obtain ⟨_, _, h1⟩ := bind_ok.1 h1
    obtain ⟨_, _, h1⟩ := bind_ok.1 h1
    rw [← pure_ok.1 h1]
    exact ⟨⟨rfl, rfl⟩, rfl, rfl, rfl, rfl⟩
  obtain ⟨f1, f2, f3, f4, f5⟩ := hflds
  refine ⟨mu', hrev, by rw [hidx, e7], by rw [hunck, e8], f1, f2, f3, f4, f5, ?_, hvl, ?_⟩
  · rw [e7, e8, hks] at hks'; exact (Except.ok.inj hks').symm
  intro b k hk
  have hbl : b < ms.mu.unc.length := by rw [hwf.unc, ← hwf.idx.len]; exact (List.getElem?_eq_some_iff.1 hk).1
  have hu := List.getElem?_eq_getElem hbl
  obtain ⟨ib, nb, h1, h2, h3⟩ := hb b k _ hu hk
  obtain ⟨d, d1, _, d3, _⟩ := hblk b k nb _ (by rw [hunc]; exact hu) hk h2
  have hib : ib = (nm.idx.N_var.take b).sum := by
    have := hst b (by rw [hNl, hf.len]; exact hbl)
    rw [h1] at this; exact Option.some.inj this
  rw [el, en, ← hib, h3] at d1
  cases d1
  exact d3 (by simp)

theorem colAt_take {T k b : Nat} {x : List α} : g.colAt T n k b (x.take T) = g.colAt T n k b x := by
  funext r
  unfold GN.colAt
  refine sum_congr rfl fun j hj => ?_
  rw [ent_take (Finset.mem_range.1 hj)]

/-- The estimate of the data at a point `x`: original layout, no track indices or times, un-normalised values. -/
theorem estimate_ok (h : g.Setup ms labels clabels m N n) {x : List α} (hx : x.length = N.sum + n + labels.length) :
    ∃ est, (g.estimate x (N.sum + n) ms.mu.idx.Nm.sum).denormalise = .ok est ∧ est.mu.idx = ms.mu.idx ∧ est.mu.unck = ms.mu.unck ∧
      est.a = x.drop (N.sum + n) ∧ est.constant = ms.constant ∧ est.sensor_model = ms.sensor_model ∧ est.adjustment_model = ms.adjustment_model ∧
      (est.mu.time1 = none ∧ est.mu.time2 = none ∧ est.mu.across_track_index1 = none ∧ est.mu.across_track_index2 = none ∧
        est.mu.along_track_index1 = none ∧ est.mu.along_track_index2 = none) ∧
      ∀ (b k : Nat), ms.mu.idx.N_var[b]? = some k →
        slice est.mu.values (ms.mu.idx.N_var.take b).sum ((ms.mu.idx.N_var.take b).sum + k) = vector k (g.colAt (N.sum + n) n k b x) := by
  obtain ⟨mu', h1, h2, h3, ⟨h4, h5⟩, h6, h7, h8, h9, _, _, h10⟩ := reverse_ok h (xs := x.take (N.sum + n)) (by rw [List.length_take]; omega)
    (nm := g.hd.mu.bare (x.take (N.sum + n)) (List.replicate ms.mu.idx.Nm.sum 0)) rfl rfl rfl rfl rfl (by simp [MatchUp.bare])
    (by rw [← h.ready.orig, ← h.facts.orig]; rfl) (by rw [← h.facts.unck]; rfl)
  refine ⟨{ g.estimate x (N.sum + n) ms.mu.idx.Nm.sum with mu := mu' }, bind_ok.2 ⟨mu', h1, rfl⟩, h2, h3, rfl, ?_, ?_, ?_, ⟨h4, h5, h6, h7, h8, h9⟩, ?_⟩
  · show g.hd.constant = _; rw [h.hd]
  · show g.hd.sensor_model = _; rw [h.hd]
  · show g.hd.adjustment_model = _; rw [h.hd]
  · intro b k hk
    rw [← colAt_take]
    exact h10 b k hk

/-- The blocks of one sensor in one series. -/
theorem covBlocks_eq {x : Idx} {s i q : Nat} (ht : x.n_sensor.length = x.n_mu.length ∧ x.n_cov.length = x.n_mu.length)
    (h : x.covNumbers s i = (List.range q).map (· + 1)) : covBlocks x s i = (List.range q).map (blkOf x s i) := by
  have hlen : ∀ b : Nat, b < x.n_mu.length → x.blocks[b]? = some (x.n_sensor.getD b 0, x.n_mu.getD b 0, x.n_cov.getD b 0) := by
    intro b hb
    unfold Idx.blocks
    simp only [List.getElem?_zip_eq_some]
    simp [List.getD, ht.1, ht.2, hb]
  have hbl : x.blocks.length = x.n_mu.length := by unfold Idx.blocks; simp [ht.1, ht.2]
  -- the covariate numbers at the positions of `covBlocks`
  have h1 : (covBlocks x s i).map (fun b => x.n_cov.getD b 0) = x.covNumbers s i := by
    unfold covBlocks Idx.covNumbers
    have e1 : x.n_sensor.zip x.n_mu = x.blocks.map fun b => (b.1, b.2.1) := by
      apply List.ext_getElem?
      intro b
      by_cases hb : b < x.n_mu.length
      · rw [List.getElem?_map, hlen b hb]
        simp [List.getElem?_zip_eq_some, List.getD, ht.1, hb]
      · rw [List.getElem?_eq_none (by simp; omega), List.getElem?_eq_none (by simp [hbl]; omega)]
    rw [e1, List.zipIdx_map, List.filter_map, List.map_map, List.map_map, ← filter_zipIdx_fst x.blocks _ 0, List.map_map]
    have e2 : ((fun b : (Nat × Nat) × Nat => b.1 == (s, i)) ∘ Prod.map (fun b : Nat × Nat × Nat => (b.1, b.2.1)) id) = fun b => b.1.1 == s && b.1.2.1 == i := by
      funext b; rfl
    rw [e2]
    apply List.map_congr_left
    rintro ⟨⟨b1, b2, b3⟩, p⟩ hb
    have := (List.mem_filter.1 hb).1
    rw [List.mem_zipIdx_iff_getElem?] at this
    simp only at this
    obtain ⟨_, _, h3⟩ := blocks_get this
    simp [List.getD, h3]
  have hcl : (covBlocks x s i).length = q := by
    have := congrArg List.length h1
    rw [h] at this; simpa using this
  have hnd : (x.covNumbers s i).Nodup := by
    rw [h]; exact (List.nodup_range).map (fun a b hab => by simpa using hab)
  apply List.ext_getElem
  · simp [hcl]
  · intro c h2 h3
    have hc : c < q := by simpa using h3
    obtain ⟨hp, hb⟩ := blkOf_get h hc
    simp only [List.getElem_map, List.getElem_range]
    -- `blkOf` is in covBlocks
    have hmem : blkOf x s i c ∈ covBlocks x s i := by
      unfold covBlocks
      obtain ⟨b1, b2, _⟩ := blocks_get hb
      refine List.mem_map.2 ⟨((s, i), blkOf x s i c), List.mem_filter.2 ⟨?_, by simp⟩, rfl⟩
      rw [List.mem_zipIdx_iff_getElem?]
      simp only [List.getElem?_zip_eq_some]
      exact ⟨b1, b2⟩
    obtain ⟨c', hc', he⟩ := List.getElem_of_mem hmem
    have hn : ∀ (j : Nat) (hj : j < (covBlocks x s i).length), x.n_cov.getD ((covBlocks x s i)[j]) 0 = j + 1 := by
      intro j hj
      have := congrArg (fun l => l[j]?) (h1.trans h)
      simp only [List.getElem?_map, List.getElem?_eq_getElem hj, Option.map_some, List.getElem?_range (show j < q by omega), Option.some.injEq] at this
      exact this
    have e1 := hn c' hc'
    rw [he] at e1
    have e2 : x.n_cov.getD (blkOf x s i c) 0 = c + 1 := by
      obtain ⟨_, _, b3⟩ := blocks_get hb
      simp [List.getD, b3]
    have : c' = c := by omega
    subst this
    exact he

/-- The value matrix of one sensor in one series at the point `x`. -/
def GN.colsAt (g : GN α δ) (T n k q : Nat) (blk : Nat → Nat) (x : List α) : List (List α) :=
  (List.range q).map fun c => vector k (g.colAt T n k (blk c) x)

/-- The sensor model is evaluated on the un-normalised estimate, without track indices and times. -/
theorem estimate_side (h : g.Setup ms labels clabels m N n) {x : List α} {est : Evaluable α δ}
    (hidx : est.mu.idx = ms.mu.idx) (ha : est.a = x.drop (N.sum + n)) (hc : est.constant = ms.constant) (hsm : est.sensor_model = ms.sensor_model)
    (hno : est.mu.time1 = none ∧ est.mu.time2 = none ∧ est.mu.across_track_index1 = none ∧ est.mu.across_track_index2 = none ∧
        est.mu.along_track_index1 = none ∧ est.mu.along_track_index2 = none)
    (hv : ∀ (b k : Nat), ms.mu.idx.N_var[b]? = some k →
        slice est.mu.values (ms.mu.idx.N_var.take b).sum ((ms.mu.idx.N_var.take b).sum + k) = vector k (g.colAt (N.sum + n) n k b x))
    {i s q k : Nat} {name : String} {f : SensorModel α δ} {pair : Nat × Nat} (hp : ms.mu.idx.Im[i]? = some pair) (hs : s = pair.1 ∨ s = pair.2)
    (hname : ms.mu.idx.sensors[s]? = some name) (hfm : ms.sensor_model[s]? = some f) (hq1 : 1 ≤ q)
    (hcov : ms.mu.idx.covNumbers s (i + 1) = (List.range q).map (· + 1)) (hk : ms.mu.idx.Nm[i]? = some k) :
    sideMeasurand est (i + 1) s = f (g.colsAt (N.sum + n) n k q (blkOf ms.mu.idx s (i + 1)) x)
      (labelled labels (x.drop (N.sum + n)) name) (labelled clabels ms.constant name) none none none := by
  obtain ⟨hs1, hs2⟩ := h.ready.sides i pair hp
  obtain ⟨n1, _, _, _, hn1, _⟩ := id hs1
  obtain ⟨n2, _, _, _, hn2, _⟩ := id hs2
  have hnn : name = n1 ∨ name = n2 := by
    rcases hs with rfl | rfl
    · rw [hn1] at hname; exact .inl (by simpa using hname.symm)
    · rw [hn2] at hname; exact .inr (by simpa using hname.symm)
  have hwf := h.ready.wf
  have hlt : i < ms.mu.idx.Nm.length := (List.getElem?_eq_some_iff.1 hk).1
  have hc1 : ms.mu.idx.cNm[i]? = some (ms.mu.idx.Nm.take i).sum := by rw [hwf.idx.series, prefixSums_getElem?_of_le _ (by omega)]
  have hc2 : ms.mu.idx.cNm[i + 1]? = some (ms.mu.idx.Nm.take (i + 1)).sum := by rw [hwf.idx.series, prefixSums_getElem?_of_le _ (by omega)]
  have hnone : ∀ {β : Type}, ms.mu.idx.getSensorArray (β := β) none none (i + 1) name = .ok none := by
    intro β
    unfold Idx.getSensorArray
    rw [Nat.add_sub_cancel, pyGet_some hc1, pyGet_some hc2, pyGet_some hp]
    simp only [bind, Except.bind]
    rw [pyGet_some hn1, pyGet_some hn2]
    simp only []
    by_cases he : name = n1
    · rw [if_pos he]; rfl
    · rw [if_neg he, if_pos (hnn.resolve_left he)]; rfl
  have hblk : ∀ c, c < q → pyGet ms.mu.idx.idx (blkOf ms.mu.idx s (i + 1) c) = .ok (ms.mu.idx.N_var.take (blkOf ms.mu.idx s (i + 1) c)).sum ∧
      pyGet ms.mu.idx.idx (blkOf ms.mu.idx s (i + 1) c + 1) = .ok ((ms.mu.idx.N_var.take (blkOf ms.mu.idx s (i + 1) c)).sum + k) ∧
      ms.mu.idx.N_var[blkOf ms.mu.idx s (i + 1) c]? = some k := by
    intro c hc
    obtain ⟨_, hb⟩ := blkOf_get hcov hc
    have hsz := block_size hwf.idx hb (by simpa using hk)
    have hl : blkOf ms.mu.idx s (i + 1) c < ms.mu.idx.N_var.length := (List.getElem?_eq_some_iff.1 hsz).1
    refine ⟨by rw [hwf.idx.bounds, pyGet_prefixSums _ (by omega)], ?_, hsz⟩
    rw [hwf.idx.bounds, pyGet_prefixSums _ (by omega), take_succ_sum _ hsz]
  unfold sideMeasurand
  rw [hidx, pyGet_some hname]
  simp only [bind, Except.bind]
  rw [covBlocks_eq h.ready.tables hcov, List.mapM_map]
  have hm1 : (List.range q).mapM ((fun b => (do
      let lo ← pyGet ms.mu.idx.idx b
      let hi ← pyGet ms.mu.idx.idx (b + 1)
      pure (lo, hi) : Py (Nat × Nat))) ∘ blkOf ms.mu.idx s (i + 1)) =
      .ok ((List.range q).map fun c => ((ms.mu.idx.N_var.take (blkOf ms.mu.idx s (i + 1) c)).sum, (ms.mu.idx.N_var.take (blkOf ms.mu.idx s (i + 1) c)).sum + k)) := by
    apply mapM_ok_of
    intro c hc
    obtain ⟨h1, h2, _⟩ := hblk c (List.mem_range.1 hc)
    exact bind_ok.2 ⟨_, h1, bind_ok.2 ⟨_, h2, rfl⟩⟩
  simp only [bind, Except.bind, Function.comp_def] at hm1 ⊢
  rw [hm1]
  simp only [h.ready.parameters.1, h.ready.constants, pickLabelled, ha, hc]
  have hfirst : pyGet ((List.range q).map fun c => ((ms.mu.idx.N_var.take (blkOf ms.mu.idx s (i + 1) c)).sum, (ms.mu.idx.N_var.take (blkOf ms.mu.idx s (i + 1) c)).sum + k)) 0 =
      .ok ((ms.mu.idx.N_var.take (blkOf ms.mu.idx s (i + 1) 0)).sum, (ms.mu.idx.N_var.take (blkOf ms.mu.idx s (i + 1) 0)).sum + k) := by
    apply pyGet_some
    rw [List.getElem?_map, List.getElem?_range hq1]; rfl
  rw [hfirst]
  simp only [Nat.add_sub_cancel_left]
  have hX : ((List.range q).map fun c => ((ms.mu.idx.N_var.take (blkOf ms.mu.idx s (i + 1) c)).sum, (ms.mu.idx.N_var.take (blkOf ms.mu.idx s (i + 1) c)).sum + k)).mapM
      (fun b : Nat × Nat => setSlice (List.replicate k (0 : α)) 0 k (slice est.mu.values b.1 b.2)) =
      .ok (g.colsAt (N.sum + n) n k q (blkOf ms.mu.idx s (i + 1)) x) := by
    rw [List.mapM_map]
    unfold GN.colsAt
    apply mapM_ok_of
    intro c hc
    obtain ⟨_, _, h3⟩ := hblk c (List.mem_range.1 hc)
    simp only [Function.comp]
    rw [hv _ _ h3, setSlice_eq (Nat.zero_le _) (by simp) (by simp)]
    simp
  rw [hX]
  simp only []
  unfold MatchUp.getSensorAcrossTrackIndex MatchUp.getSensorAlongTrackIndex MatchUp.getSensorTime
  obtain ⟨t1, t2, t3, t4, t5, t6⟩ := hno
  rw [hidx, t1, t2, t3, t4, t5, t6, hnone]
  simp only []
  rw [hnone]
  simp only []
  rw [hsm, pyGet_some hfm]
  rfl
end

/-- The in-place division of `calc_f` (GN_algo.py L396-400). -/
theorem divideKs_eq {f : α → α → α} {x : Idx} {unck : List (List α)} {ks : List α} (hc : x.cNm = prefixSums x.Nm)
    (hI : x.Im.length = x.Nm.length) (hu : unck.map List.length = x.Nm) (hk : ks.length = x.Nm.sum) :
    (List.range x.Im.length).foldlM (fun ks i => (do
      let lo ← pyGet x.cNm i
      let hi ← pyGet x.cNm (i + 1)
      let u ← pyGet unck i
      let v ← npZip f (slice ks lo hi) u
      setSlice ks lo hi v : Py (List α))) ks = .ok (List.zipWith f ks unck.flatten) := by
  have hul : unck.length = x.Nm.length := by rw [← hu]; simp
  have hfl : unck.flatten.length = x.Nm.sum := by rw [List.length_flatten, hu]
  have hZ : (List.zipWith f ks unck.flatten).length = x.Nm.sum := by simp [hfl, hk]
  have key : ∀ k, k ≤ x.Nm.length → (List.range k).foldlM (fun ks i => (do
      let lo ← pyGet x.cNm i
      let hi ← pyGet x.cNm (i + 1)
      let u ← pyGet unck i
      let v ← npZip f (slice ks lo hi) u
      setSlice ks lo hi v : Py (List α))) ks
      = .ok ((List.zipWith f ks unck.flatten).take (x.Nm.take k).sum ++ ks.drop (x.Nm.take k).sum) := by
    intro k
    induction k with
    | zero => intro _; simp [pure, Except.pure]
    | succ k ih =>
      intro hk1
      rw [List.range_succ, List.foldlM_append, ih (by omega)]
      have hkl : k < x.Nm.length := by omega
      have hku : k < unck.length := by omega
      have hs := take_succ_sum x.Nm (List.getElem?_eq_getElem hkl)
      have hle := take_sum_le_take_sum x.Nm (show k + 1 ≤ x.Nm.length by omega)
      rw [List.take_length] at hle
      have hlen : unck[k].length = x.Nm[k] := by
        have : (unck.map List.length)[k]? = x.Nm[k]? := by rw [hu]
        rw [List.getElem?_map, List.getElem?_eq_getElem hku, List.getElem?_eq_getElem hkl] at this
        simpa using this
      have hslice : slice unck.flatten (x.Nm.take k).sum (x.Nm.take (k+1)).sum = unck[k] := by
        have := slice_flatten unck (List.getElem?_eq_getElem hku)
        rwa [hu] at this
      set Z := List.zipWith f ks unck.flatten with hZd
      set a := (x.Nm.take k).sum with ha
      set b := (x.Nm.take (k+1)).sum with hb
      have hta : (Z.take a).length = a := by simp [hZ]; omega
      have e0 : slice (Z.take a ++ ks.drop a) a b = slice ks a b := by
        unfold slice
        rw [List.drop_append, List.drop_of_length_le (by omega), hta, Nat.sub_self, List.drop_zero, List.nil_append]
      refine bind_ok.2 ⟨_, rfl, ?_⟩
      rw [List.foldlM_cons]
      refine bind_ok.2 ⟨_, bind_ok.2 ⟨_, by rw [hc]; exact pyGet_prefixSums _ (by omega), bind_ok.2 ⟨_, by rw [hc]; exact pyGet_prefixSums _ (by omega),
        bind_ok.2 ⟨unck[k], pyGet_ok.2 (List.getElem?_eq_getElem hku), bind_ok.2 ⟨_, by rw [← ha, ← hb, e0]; exact npZip_eq (by rw [slice_length]; omega),
          setSlice_eq (by omega) (by simp [hZ]; omega) (by simp [slice_length]; omega)⟩⟩⟩⟩, ?_⟩
      rw [List.foldlM_nil, pure_ok]
      have e1 : (Z.take a ++ ks.drop a).take a = Z.take a := by
        rw [List.take_append_of_le_length (by omega), List.take_of_length_le (by omega)]
      have e2 : (Z.take a ++ ks.drop a).drop b = ks.drop b := by
        rw [List.drop_append, List.drop_of_length_le (by omega), hta, List.drop_drop, List.nil_append]
        congr 1; omega
      have e3 : List.zipWith f (slice ks a b) unck[k] = slice Z a b := by
        rw [← hslice, hZd]; unfold slice
        rw [List.drop_zipWith, List.take_zipWith]
      have e4 : Z.take b = Z.take a ++ slice Z a b := by
        unfold slice
        rw [← List.take_add]; congr 1; omega
      rw [← ha, ← hb, e1, e2, e3, e4]
  rw [hI, key _ (Nat.le_refl _), List.take_length, List.take_of_length_le (by omega), List.drop_of_length_le (by omega), List.append_nil]

/-- Entries of a concatenation, as a sum over its parts. -/
theorem ent_flatten (L : List (List α)) (r : Nat) : ent L.flatten r = ∑ i ∈ Finset.range L.length,
    if ((L.map List.length).take i).sum ≤ r ∧ r < ((L.map List.length).take i).sum + (L.getD i []).length
    then ent (L.getD i []) (r - ((L.map List.length).take i).sum) else 0 := by
  induction L generalizing r with
  | nil => simp [ent]
  | cons l L ih =>
    rw [List.flatten_cons, List.length_cons, Finset.sum_range_succ']
    simp only [List.map_cons, List.take_succ_cons, List.sum_cons, List.getD_cons_succ, List.take_zero, List.sum_nil, List.getD_cons_zero, Nat.zero_le, true_and,
      Nat.zero_add, Nat.sub_zero]
    by_cases hr : r < l.length
    · rw [if_pos hr, Finset.sum_eq_zero, zero_add]
      · simp [ent, List.getD, hr, List.getElem?_append]
      · intro i _
        rw [if_neg (by omega)]
    · rw [if_neg hr, add_zero]
      have : ent (l ++ L.flatten) r = ent L.flatten (r - l.length) := by
        simp only [ent, List.getD]
        rw [List.getElem?_append_right (by omega)]
      rw [this, ih]
      refine sum_congr rfl fun i _ => ?_
      have e : r - (l.length + ((L.map List.length).take i).sum) = r - l.length - ((L.map List.length).take i).sum := by omega
      rw [e]
      congr 1
      apply propext
      omega

section
variable {g : GN α δ} {ms : Evaluable α δ} {labels clabels : List String} {m n : Nat} {N : List Nat}

/-- What the models give for one sensor of series `i` (from 0) at the point `x`: measurand `y`, adjusted measurand `a`. -/
def GN.SideVal (g : GN α δ) (ms : Evaluable α δ) (labels clabels : List String) (T n i k s : Nat) (x y a : List α) : Prop :=
  ∃ name q f B J d, ms.mu.idx.sensors[s]? = some name ∧ ms.sensor_model[s]? = some f ∧ ms.adjustment_model[s]? = some B ∧ 1 ≤ q ∧
    ms.mu.idx.covNumbers s (i + 1) = (List.range q).map (· + 1) ∧
    f (g.colsAt T n k q (blkOf ms.mu.idx s (i + 1)) x) (labelled labels (x.drop T) name) (labelled clabels ms.constant name) none none none = .ok (y, J) ∧
    B y = .ok (a, d) ∧ y.length = k ∧ a.length = k

/-- The residuals in closed form. -/
theorem calcF_eq (h : g.Setup ms labels clabels m N n) {x : List α} (hx : x.length = N.sum + n + labels.length) {y1 y2 a1 a2 : Nat → List α}
    (hm : ∀ (i k : Nat) pair, ms.mu.idx.Im[i]? = some pair → ms.mu.idx.Nm[i]? = some k →
      g.SideVal ms labels clabels (N.sum + n) n i k pair.1 x (y1 i) (a1 i) ∧ g.SideVal ms labels clabels (N.sum + n) n i k pair.2 x (y2 i) (a2 i)) :
    g.calcF x = .ok (vector (N.sum + n + ms.mu.idx.Nm.sum) fun r => if r < N.sum + n then ent x r - ent g.hd.mu.values r else
      (∑ i ∈ Finset.range ms.mu.idx.Nm.length, if (ms.mu.idx.Nm.take i).sum ≤ r - (N.sum + n) ∧ r - (N.sum + n) < (ms.mu.idx.Nm.take i).sum + ms.mu.idx.Nm.getD i 0
        then (ent (a2 i) (r - (N.sum + n) - (ms.mu.idx.Nm.take i).sum) - ent (a1 i) (r - (N.sum + n) - (ms.mu.idx.Nm.take i).sum)) /
          ent (ms.mu.unck.getD i []) (r - (N.sum + n) - (ms.mu.idx.Nm.take i).sum) else 0) - ent g.hd.mu.ks (r - (N.sum + n))) := by
  have hwf := h.ready.wf
  have hkl : g.hd.mu.ks.length = ms.mu.idx.Nm.sum := by
    have hk := h.facts.ks
    rw [scaleKs_eq h.ready.wf.idx.series h.ready.pairs h.ready.wf.unck h.ready.wf.ks] at hk
    have := (Except.ok.inj hk).symm
    rw [this, List.length_zipWith, h.ready.wf.ks, List.length_flatten, h.ready.wf.unck]
    simp
  obtain ⟨est, hest, hidx, hunck, ha, hcst, hsm, hadj, hno, hv⟩ := estimate_ok h hx
  have hp : ∀ i, i < ms.mu.idx.Nm.length → ∃ pair, ms.mu.idx.Im[i]? = some pair := fun i hi =>
    ⟨_, List.getElem?_eq_getElem (by rw [h.ready.pairs]; exact hi)⟩
  have hsel : ∀ n' ∈ List.range' 1 ms.mu.idx.Nm.length, 1 ≤ n' ∧ n' ≤ ms.mu.idx.Nm.length ∧ ∃ k pair, ms.mu.idx.Im[n' - 1]? = some pair ∧
      ms.mu.idx.Nm[n' - 1]? = some k := by
    intro n' hn'
    rw [List.mem_range'_1] at hn'
    obtain ⟨pair, hpair⟩ := hp (n' - 1) (by omega)
    exact ⟨hn'.1, by omega, _, pair, hpair, List.getElem?_eq_getElem (by omega)⟩
  have hone : ∀ n' ∈ List.range' 1 ms.mu.idx.Nm.length, ∀ (s : Nat) (y a : List α), (∀ k, ms.mu.idx.Nm[n' - 1]? = some k →
      g.SideVal ms labels clabels (N.sum + n) n (n' - 1) k s x y a) → (∃ pair, ms.mu.idx.Im[n' - 1]? = some pair ∧ (s = pair.1 ∨ s = pair.2)) →
      y.length = ms.mu.idx.Nm.getD (n' - 1) 0 ∧ a.length = ms.mu.idx.Nm.getD (n' - 1) 0 ∧ (∃ J, sideMeasurand est n' s = .ok (y, J)) ∧
      ∃ B d, est.adjustment_model[s]? = some B ∧ B y = .ok (a, d) := by
    rintro n' hn' s y a hsv ⟨pair, hpair, hs⟩
    obtain ⟨h1, h2, k, _, _, hk⟩ := hsel n' hn'
    obtain ⟨name, q, f, B, J, d, e1, e2, e3, e4, e5, e6, e7, e8, e9⟩ := hsv k hk
    have hkd : ms.mu.idx.Nm.getD (n' - 1) 0 = k := by simp [List.getD, hk]
    have hside := estimate_side h hidx ha hcst hsm hno hv hpair hs e1 e2 e4 e5 hk
    rw [e6, Nat.sub_add_cancel h1] at hside
    exact ⟨by rw [hkd, e8], by rw [hkd, e9], ⟨J, hside⟩, B, d, by rw [hadj]; exact e3, e7⟩
  have hpairs : ∀ n' ∈ List.range' 1 ms.mu.idx.Nm.length, ms.mu.idx.Im[n' - 1]? = some (ms.mu.idx.Im.getD (n' - 1) (0, 0)) := by
    intro n' hn'
    obtain ⟨_, _, _, pair, hpair, _⟩ := hsel n' hn'
    simp [List.getD, hpair]
  have hA : ∀ n' (hn' : n' ∈ List.range' 1 ms.mu.idx.Nm.length), _ := fun n' hn' => hone n' hn' (ms.mu.idx.Im.getD (n' - 1) (0, 0)).1 (y1 (n' - 1)) (a1 (n' - 1))
    (fun k hk => (hm _ k _ (hpairs n' hn') hk).1) ⟨_, hpairs n' hn', .inl rfl⟩
  have hB : ∀ n' (hn' : n' ∈ List.range' 1 ms.mu.idx.Nm.length), _ := fun n' hn' => hone n' hn' (ms.mu.idx.Im.getD (n' - 1) (0, 0)).2 (y2 (n' - 1)) (a2 (n' - 1))
    (fun k hk => (hm _ k _ (hpairs n' hn') hk).2) ⟨_, hpairs n' hn', .inr rfl⟩
  have heval := evaluateAdjusted_ok (ms := est) (arg := .num 0) (sel := List.range' 1 ms.mu.idx.Nm.length) (pairs := fun n' => ms.mu.idx.Im.getD (n' - 1) (0, 0))
    (y1 := fun n' => y1 (n' - 1)) (y2 := fun n' => y2 (n' - 1)) (a1 := fun n' => a1 (n' - 1)) (a2 := fun n' => a2 (n' - 1))
    (by show seriesSet est.mu.idx.n_mu = _; rw [hidx]; exact seriesSet_eq hwf.idx)
    (List.pairwise_lt_range') (fun n' hn' => by rw [hidx]; exact ⟨(hsel n' hn').1, (hsel n' hn').2.1⟩) (fun n' hn' => by rw [hidx]; exact hpairs n' hn')
    (fun n' hn' => by rw [hidx]; exact ⟨(hA n' hn').1, (hB n' hn').1⟩) (fun n' hn' => by rw [hidx]; exact ⟨(hA n' hn').2.1, (hB n' hn').2.1⟩)
    (fun n' hn' => ⟨(hA n' hn').2.2.1, (hB n' hn').2.2.1⟩) (fun n' hn' => ⟨(hA n' hn').2.2.2, (hB n' hn').2.2.2⟩)
  -- the flattened measurands
  have hlen : ∀ a : Nat → List α, (∀ n' ∈ List.range' 1 ms.mu.idx.Nm.length, (a (n' - 1)).length = ms.mu.idx.Nm.getD (n' - 1) 0) →
      ((List.range' 1 ms.mu.idx.Nm.length).map fun n' => a (n' - 1)).map List.length = ms.mu.idx.Nm := by
    intro a hl
    apply List.ext_getElem
    · simp
    · intro i h1 h2
      have := hl (1 + i) (by rw [List.mem_range'_1]; omega)
      simp only [Nat.add_sub_cancel_left] at this
      simp [this, List.getD, h2]
  have hl1 := hlen a1 fun n' hn' => (hA n' hn').2.1
  have hl2 := hlen a2 fun n' hn' => (hB n' hn').2.1
  have hent : ∀ (L : List (List α)), L.map List.length = ms.mu.idx.Nm → ∀ r, ent L.flatten r = ∑ i ∈ Finset.range ms.mu.idx.Nm.length,
      if (ms.mu.idx.Nm.take i).sum ≤ r ∧ r < (ms.mu.idx.Nm.take i).sum + ms.mu.idx.Nm.getD i 0 then ent (L.getD i []) (r - (ms.mu.idx.Nm.take i).sum) else 0 := by
    intro L hL r
    rw [ent_flatten]
    have : L.length = ms.mu.idx.Nm.length := by rw [← hL, List.length_map]
    rw [this, hL]
    refine sum_congr rfl fun i hi => ?_
    have hi' := Finset.mem_range.1 hi
    have : (L.getD i []).length = ms.mu.idx.Nm.getD i 0 := by
      rw [← hL]; simp [List.getD, show i < L.length by omega]
    rw [this]
  -- only the series containing r contributes, so that quotients of concatenations are quotients of parts
  have huniq : ∀ r, r < ms.mu.idx.Nm.sum → ∃ i, i < ms.mu.idx.Nm.length ∧ (ms.mu.idx.Nm.take i).sum ≤ r ∧ r < (ms.mu.idx.Nm.take i).sum + ms.mu.idx.Nm.getD i 0 ∧
      ∀ j, j < ms.mu.idx.Nm.length → (ms.mu.idx.Nm.take j).sum ≤ r → r < (ms.mu.idx.Nm.take j).sum + ms.mu.idx.Nm.getD j 0 → j = i := by
    intro r hr
    have hex : ∀ k, k ≤ ms.mu.idx.Nm.length → r < (ms.mu.idx.Nm.take k).sum → ∃ i, i < k ∧ (ms.mu.idx.Nm.take i).sum ≤ r ∧
        r < (ms.mu.idx.Nm.take i).sum + ms.mu.idx.Nm.getD i 0 := by
      intro k
      induction k with
      | zero => intro _ h; simp at h
      | succ k ih =>
        intro hk hr
        by_cases h0 : r < (ms.mu.idx.Nm.take k).sum
        · obtain ⟨i, h1, h2⟩ := ih (by omega) h0
          exact ⟨i, by omega, h2⟩
        · have hk' : k < ms.mu.idx.Nm.length := by omega
          have := take_succ_sum ms.mu.idx.Nm (List.getElem?_eq_getElem hk')
          have hd : ms.mu.idx.Nm.getD k 0 = ms.mu.idx.Nm[k] := by simp [List.getD, hk']
          exact ⟨k, by omega, by omega, by rw [hd]; omega⟩
    obtain ⟨i, h1, h2, h3⟩ := hex ms.mu.idx.Nm.length (Nat.le_refl _) (by rwa [List.take_length])
    refine ⟨i, h1, h2, h3, ?_⟩
    intro j hj j1 j2
    have mono : ∀ a b, a < b → b < ms.mu.idx.Nm.length → (ms.mu.idx.Nm.take a).sum + ms.mu.idx.Nm.getD a 0 ≤ (ms.mu.idx.Nm.take b).sum := by
      intro a b hab hb
      have ha' : a < ms.mu.idx.Nm.length := by omega
      have h1 := take_succ_sum ms.mu.idx.Nm (List.getElem?_eq_getElem ha')
      have hd : ms.mu.idx.Nm.getD a 0 = ms.mu.idx.Nm[a] := by simp [List.getD, ha']
      have h2 := take_sum_le_take_sum ms.mu.idx.Nm (show a + 1 ≤ b by omega)
      omega
    rcases Nat.lt_trichotomy j i with hji | hji | hji
    · have := mono j i hji h1; omega
    · exact hji
    · have := mono i j hji hj; omega
  have hpick : ∀ r, r < ms.mu.idx.Nm.sum → ∃ i, ∀ F : Nat → α, (∑ j ∈ Finset.range ms.mu.idx.Nm.length,
      if (ms.mu.idx.Nm.take j).sum ≤ r ∧ r < (ms.mu.idx.Nm.take j).sum + ms.mu.idx.Nm.getD j 0 then F j else 0) = F i := by
    intro r hr
    obtain ⟨i, h1, h2, h3, h4⟩ := huniq r hr
    refine ⟨i, fun F => ?_⟩
    rw [Finset.sum_eq_single i]
    · rw [if_pos ⟨h2, h3⟩]
    · intro j hj hne
      rw [if_neg]
      rintro ⟨j1, j2⟩
      exact hne (h4 j (Finset.mem_range.1 hj) j1 j2)
    · intro hi
      exact absurd (Finset.mem_range.2 h1) hi
  have hget : ∀ (a : Nat → List α) i, i < ms.mu.idx.Nm.length → ((List.range' 1 ms.mu.idx.Nm.length).map fun n' => a (n' - 1)).getD i [] = a i := by
    intro a i hi
    simp [List.getD, hi]
  -- evaluate
  unfold GN.calcF
  rw [h.mu_eq, h.var_eq]
  simp only [bind, Except.bind]
  rw [take_eq_vector (by omega), take_eq_vector (by rw [h.facts.vlen]), npZip_vector]
  simp only []
  have hset := setSlice_vector (l := List.replicate (N.sum + n + ms.mu.idx.Nm.sum) (0 : α)) (a := 0) (k := N.sum + n)
    (v := vector (N.sum + n) fun r => ent x r - ent g.hd.mu.values r) (by simp) (by simp)
  rw [Nat.zero_add] at hset
  rw [hset]
  simp only []
  rw [hest]
  simp only []
  have hflen : ∀ L : List (List α), L.map List.length = ms.mu.idx.Nm → L.flatten.length = ms.mu.idx.Nm.sum := fun L hL => by rw [List.length_flatten, hL]
  unfold evaluateK
  simp only [bind, Except.bind]
  rw [heval]
  simp only []
  rw [npZip_ent (hflen _ hl2) (hflen _ hl1)]
  simp only []
  rw [hidx, hunck]
  have hdiv := divideKs_eq (f := (· / · : α → α → α)) (ks := vector ms.mu.idx.Nm.sum fun i =>
    ent ((List.range' 1 ms.mu.idx.Nm.length).map fun n' => a2 (n' - 1)).flatten i - ent ((List.range' 1 ms.mu.idx.Nm.length).map fun n' => a1 (n' - 1)).flatten i)
    hwf.idx.series h.ready.pairs hwf.unck (by simp)
  simp only [bind, Except.bind] at hdiv
  rw [hdiv]
  simp only []
  rw [npZip_ent (n := ms.mu.idx.Nm.sum) (by simp [hflen _ hwf.unck]) hkl]
  simp only [List.length_replicate, vector_length]
  rw [setSlice_eq (by omega) (by simp) (by simp)]
  congr 1
  rw [show ((vector (N.sum + n + ms.mu.idx.Nm.sum) fun i => if 0 ≤ i ∧ i < N.sum + n then ent (vector (N.sum + n) fun r => ent x r - ent g.hd.mu.values r) (i - 0)
      else ent (List.replicate (N.sum + n + ms.mu.idx.Nm.sum) (0 : α)) i).drop (N.sum + n + ms.mu.idx.Nm.sum)) = [] from List.drop_of_length_le (by simp), List.append_nil]
  have htake : ((vector (N.sum + n + ms.mu.idx.Nm.sum) fun i => if 0 ≤ i ∧ i < N.sum + n then ent (vector (N.sum + n) fun r => ent x r - ent g.hd.mu.values r) (i - 0)
      else ent (List.replicate (N.sum + n + ms.mu.idx.Nm.sum) (0 : α)) i).take (N.sum + n)) = vector (N.sum + n) fun r => ent x r - ent g.hd.mu.values r := by
    unfold vector
    rw [← List.map_take, List.take_range, Nat.min_eq_left (by omega)]
    apply List.map_congr_left
    intro i hi
    have := List.mem_range.1 hi
    rw [if_pos ⟨Nat.zero_le _, this⟩]
    exact ent_vector this
  rw [htake, vector_append]
  apply vector_congr
  intro r hr
  by_cases hrv : r < N.sum + n
  · rw [if_pos hrv, if_pos hrv]
  · rw [if_neg hrv, if_neg hrv]
    congr 1
    have hr' : r - (N.sum + n) < ms.mu.idx.Nm.sum := by omega
    generalize r - (N.sum + n) = r' at *
    obtain ⟨i, hi⟩ := hpick r' hr'
    have hil : i < ms.mu.idx.Nm.length ∧ True := by
      obtain ⟨i', h1, h2, h3, h4⟩ := huniq r' hr'
      have e1 := hi (fun j => if j = i then 1 else 0)
      have e2 : (∑ j ∈ Finset.range ms.mu.idx.Nm.length, if (ms.mu.idx.Nm.take j).sum ≤ r' ∧ r' < (ms.mu.idx.Nm.take j).sum + ms.mu.idx.Nm.getD j 0
          then (if j = i then (1 : α) else 0) else 0) = 1 := by rw [e1]; simp
      by_contra hcon
      have hge : ¬ i < ms.mu.idx.Nm.length := fun hlt => hcon ⟨hlt, trivial⟩
      rw [Finset.sum_eq_zero] at e2
      · exact zero_ne_one e2
      · intro j hj
        have := Finset.mem_range.1 hj
        rw [if_neg (show ¬ j = i by omega)]
        simp
    have hz : ent (List.zipWith (· / ·) (vector ms.mu.idx.Nm.sum fun i =>
        ent ((List.range' 1 ms.mu.idx.Nm.length).map fun n' => a2 (n' - 1)).flatten i - ent ((List.range' 1 ms.mu.idx.Nm.length).map fun n' => a1 (n' - 1)).flatten i)
        ms.mu.unck.flatten) r' = (ent ((List.range' 1 ms.mu.idx.Nm.length).map fun n' => a2 (n' - 1)).flatten r' -
          ent ((List.range' 1 ms.mu.idx.Nm.length).map fun n' => a1 (n' - 1)).flatten r') / ent ms.mu.unck.flatten r' := by
      have := npZip_ent (n := ms.mu.idx.Nm.sum) (f := (· / · : α → α → α)) (a := vector ms.mu.idx.Nm.sum fun i =>
        ent ((List.range' 1 ms.mu.idx.Nm.length).map fun n' => a2 (n' - 1)).flatten i - ent ((List.range' 1 ms.mu.idx.Nm.length).map fun n' => a1 (n' - 1)).flatten i)
        (b := ms.mu.unck.flatten) (by simp) (hflen _ hwf.unck)
      rw [npZip_eq (by simp [hflen _ hwf.unck])] at this
      rw [Except.ok.inj this, ent_vector hr', ent_vector hr']
    rw [hz, hent _ hl2, hent _ hl1, hent _ hwf.unck, hi, hi, hi, hi, hget _ _ hil.1, hget _ _ hil.1]
end
end Verif
