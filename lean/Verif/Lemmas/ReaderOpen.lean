import Verif.Lemmas.ReaderValues
/-
Helper lemmas: inversion of `openMatchUp`, value jobs.
-/
set_option autoImplicit false
namespace Verif
variable {α β : Type}

theorem bind_ok {x : Py α} {f : α → Py β} {b : β} : (x >>= f) = .ok b ↔ ∃ a, x = .ok a ∧ f a = .ok b := by
  cases x with
  | error e => simp [bind, Except.bind]
  | ok a => simp [bind, Except.bind]

theorem pure_ok {a b : α} : (pure a : Py α) = .ok b ↔ a = b := by
  simp [pure, Except.pure]

theorem openMatchUp_inv {δ : Type} [Zero α] [DecidableEq α] {env : ReadEnv α δ} {ds : List (Dataset α)} {mu : MatchUp α δ}
    (h : openMatchUp env ds = .ok mu) :
    ∃ x, getIdx ds = .ok x ∧ openValues ds x = .ok mu.values ∧ openKs ds x = .ok mu.ks ∧
      (∃ t, openTime env.dateZero env.toDate Dataset.time1 ds x = .ok t ∧ mu.time1 = some t) ∧
      (∃ t, openTime env.dateZero env.toDate Dataset.time2 ds x = .ok t ∧ mu.time2 = some t) ∧
      openOptionalIndex env.nan env.toInt "across_track_index1" ds x = .ok mu.across_track_index1 ∧
      openOptionalIndex env.nan env.toInt "across_track_index2" ds x = .ok mu.across_track_index2 ∧
      openOptionalIndex env.nan env.toInt "along_track_index1" ds x = .ok mu.along_track_index1 ∧
      openOptionalIndex env.nan env.toInt "along_track_index2" ds x = .ok mu.along_track_index2 ∧
      openUnc env.enumNat ds x = .ok (mu.unc, mu.w_matrices, mu.u_matrices) ∧
      mu.unck = openUncK env.rss ds ∧
      (∃ a, openAdditional env.nan env.fill (additionalNames env.enumStr ds) ds x = .ok a ∧
        mu.additional_values = some a) ∧
      mu.idx = { x with additional_values_name := some (additionalNames env.enumStr ds) } ∧
      mu.original_idx = mu.idx := by
  unfold openMatchUp at h
  simp only [bind_ok, pure_ok] at h
  obtain ⟨x, hx, v, hv, k, hk, t1, ht1, t2, ht2, a1, ha1, a2, ha2, a3, ha3, a4, ha4, ⟨u, w, uu⟩, hu, ad, had, rfl⟩ := h
  exact ⟨x, hx, hv, hk, ⟨t1, ht1, rfl⟩, ⟨t2, ht2, rfl⟩, ha1, ha2, ha3, ha4, hu, rfl, ⟨ad, had, rfl⟩, rfl, rfl⟩

theorem ConsistentFiles.sides_m {ds : List (Dataset α)} (hc : ConsistentFiles ds) {s t : Side α}
    (hs : s ∈ ds.flatMap Dataset.sides) (ht : t ∈ ds.flatMap Dataset.sides) (hn : s.name = t.name) : s.m = t.m := by
  obtain ⟨d, hd, hs⟩ := mem_sides.1 hs
  obtain ⟨e, he, ht⟩ := mem_sides.1 ht
  exact hc.2 d hd e he s (by simp [hs]) t (by simp [ht]) hn

theorem IdxFacts.ms_eq {ds : List (Dataset α)} {x : Idx} {mx : Nat} (h : IdxFacts ds x mx) (hc : ConsistentFiles ds)
    {s : Side α} (hs : s ∈ ds.flatMap Dataset.sides) : x.sensor_ms.getD (x.sensors.idxOf s.name) 0 = s.m := by
  obtain ⟨t, ht, hn, hm⟩ := h.ms_first _ _ (h.sens_lookup hs)
  rw [List.getD, hm]
  exact hc.sides_m ht hs hn

theorem IdxFacts.ms_lookup {ds : List (Dataset α)} {x : Idx} {mx : Nat} (h : IdxFacts ds x mx) (hc : ConsistentFiles ds)
    {s : Side α} (hs : s ∈ ds.flatMap Dataset.sides) : x.sensor_ms[x.sensors.idxOf s.name]? = some s.m := by
  obtain ⟨t, ht, hn, hm⟩ := h.ms_first _ _ (h.sens_lookup hs)
  rw [hm, hc.sides_m ht hs hn]

theorem IdxFacts.pair_ne {ds : List (Dataset α)} {x : Idx} {mx : Nat} (h : IdxFacts ds x mx) (hc : ConsistentFiles ds) :
    ∀ p ∈ x.Im, p.1 ≠ p.2 := by
  intro p hp
  rw [h.Im] at hp
  obtain ⟨d, hd, rfl⟩ := List.mem_map.1 hp
  intro he
  simp only at he
  have h1 := h.sens_lookup (mem_sides.2 ⟨d, hd, .inl rfl⟩)
  have h2 := h.sens_lookup (mem_sides.2 ⟨d, hd, .inr rfl⟩)
  rw [he, h2] at h1
  exact hc.1 d hd (by simpa using h1.symm)

/-- Membership in the block list in terms of the files. -/
theorem IdxFacts.mem_blocks {ds : List (Dataset α)} {x : Idx} {mx : Nat} (h : IdxFacts ds x mx) (hc : ConsistentFiles ds)
    {n i c : Nat} : (n, i, c) ∈ x.blocks ↔
      1 ≤ i ∧ 1 ≤ c ∧ ∃ d s, ds[i-1]? = some d ∧ (s = d.s1 ∨ s = d.s2) ∧ n = x.sensors.idxOf s.name ∧ c ≤ s.m := by
  rw [h.blocks, mem_blockList]
  constructor
  · rintro ⟨h1, _, h3, h4, p, hp, hs⟩
    rw [h.Im, List.getElem?_map] at hp
    cases hd : ds[i-1]? with
    | none => simp [hd] at hp
    | some d =>
      rw [hd] at hp
      simp only [Option.map_some, Option.some.injEq] at hp
      subst hp
      have hmem := List.mem_of_getElem? hd
      rcases hs with rfl | rfl
      · refine ⟨h4, h1, d, d.s1, rfl, .inl rfl, rfl, ?_⟩
        rwa [h.ms_eq hc (mem_sides.2 ⟨d, hmem, .inl rfl⟩)] at h3
      · refine ⟨h4, h1, d, d.s2, rfl, .inr rfl, rfl, ?_⟩
        rwa [h.ms_eq hc (mem_sides.2 ⟨d, hmem, .inr rfl⟩)] at h3
  · rintro ⟨hi, hc1, d, s, hd, hs, rfl, hcm⟩
    have hmem := List.mem_of_getElem? hd
    have hs' : s ∈ ds.flatMap Dataset.sides := mem_sides.2 ⟨d, hmem, hs⟩
    have hm := h.ms_eq hc hs'
    refine ⟨hc1, ?_, by rw [hm]; exact hcm, hi, _, by rw [h.Im, List.getElem?_map, hd]; rfl, ?_⟩
    · have := h.ms_le (x.sensors.idxOf s.name); omega
    · rcases hs with rfl | rfl <;> simp

theorem IdxFacts.nodup {ds : List (Dataset α)} {x : Idx} {mx : Nat} (h : IdxFacts ds x mx) (hc : ConsistentFiles ds) :
    x.blocks.Nodup := by rw [h.blocks]; exact blockList_nodup (h.pair_ne hc)

theorem IdxFacts.N_var_length {ds : List (Dataset α)} {x : Idx} {mx : Nat} (h : IdxFacts ds x mx) :
    x.N_var.length = x.blocks.length := by
  rw [h.N_var, h.n_mu, h.blocks]; simp

/-- The size of block `b` is the number of match-ups of its series. -/
theorem IdxFacts.N_var_get {ds : List (Dataset α)} {x : Idx} {mx : Nat} (h : IdxFacts ds x mx)
    {b n i c : Nat} (hb : x.blocks[b]? = some (n, i, c)) {d : Dataset α} (hd : ds[i-1]? = some d) :
    x.N_var[b]? = some d.M := by
  rw [h.blocks] at hb
  rw [h.N_var, h.n_mu]
  simp [List.getElem?_map, hb, List.getD, hd]

/-- Names of blocks. -/
theorem IdxFacts.names {ds : List (Dataset α)} {x : Idx} {mx : Nat} (h : IdxFacts ds x mx) (hc : ConsistentFiles ds) :
    x.nameBlocks = .ok (x.blocks.map fun b => (x.sensors.getD b.1 "", b.2.1, b.2.2)) := by
  unfold Idx.nameBlocks
  have : x.n_sensor.mapM (pyGet x.sensors) = .ok (x.n_sensor.map fun s => x.sensors.getD s "") := by
    apply mapM_ok_of
    intro s hs
    rw [h.n_sensor, ← h.blocks] at hs
    obtain ⟨⟨n, i, c⟩, hb, rfl⟩ := List.mem_map.1 hs
    obtain ⟨_, _, d, t, hd, ht, hn, _⟩ := (h.mem_blocks hc).1 hb
    have := h.sens_lookup (mem_sides.2 ⟨d, List.mem_of_getElem? hd, ht⟩)
    simp only
    rw [hn, pyGet, List.getD, this]; rfl
  rw [this]
  simp only [bind, Except.bind, pure, Except.pure]
  rw [h.blocks, h.n_sensor, h.n_mu, h.n_cov]
  congr 1
  generalize blockList x.Im x.sensor_ms mx = l
  induction l with
  | nil => rfl
  | cons a l ih => simp at ih ⊢; exact ih

theorem IdxFacts.name_inj {ds : List (Dataset α)} {x : Idx} {mx : Nat} (h : IdxFacts ds x mx) (hc : ConsistentFiles ds) :
    (x.blocks.map fun b => (x.sensors.getD b.1 "", b.2.1, b.2.2)).Nodup := by
  rw [List.nodup_map_iff_inj_on (h.nodup hc)]
  rintro ⟨n, i, c⟩ hb ⟨n', i', c'⟩ hb' he
  simp only [Prod.mk.injEq] at he
  obtain ⟨_, _, d, t, hd, ht, hn, _⟩ := (h.mem_blocks hc).1 hb
  obtain ⟨_, _, d', t', hd', ht', hn', _⟩ := (h.mem_blocks hc).1 hb'
  have e1 := h.sens_lookup (mem_sides.2 ⟨d, List.mem_of_getElem? hd, ht⟩)
  have e2 := h.sens_lookup (mem_sides.2 ⟨d', List.mem_of_getElem? hd', ht'⟩)
  subst hn hn'
  simp only [List.getD, e1, e2, Option.getD_some] at he
  rw [he.1, he.2.1, he.2.2]

/-- Membership in the name-keyed block table in terms of the files only. -/
theorem IdxFacts.mem_names {ds : List (Dataset α)} {x : Idx} {mx : Nat} (h : IdxFacts ds x mx) (hc : ConsistentFiles ds)
    {name : String} {i c : Nat} :
    (name, i, c) ∈ (x.blocks.map fun b => (x.sensors.getD b.1 "", b.2.1, b.2.2)) ↔
      ∃ col, FileColumn ds name i c col := by
  simp only [List.mem_map, Prod.mk.injEq, Prod.exists]
  constructor
  · rintro ⟨n, i', c', hb, hname, rfl, rfl⟩
    obtain ⟨h1, h2, d, s, hd, hs, hn, hm⟩ := (h.mem_blocks hc).1 hb
    have e1 := h.sens_lookup (mem_sides.2 ⟨d, List.mem_of_getElem? hd, hs⟩)
    subst hn
    simp only [List.getD, e1, Option.getD_some] at hname
    exact ⟨_, d, s, h1, hd, hs, hname, h2, hm, rfl⟩
  · rintro ⟨col, d, s, h1, hd, hs, hn, h2, hm, _⟩
    refine ⟨x.sensors.idxOf s.name, i, c, (h.mem_blocks hc).2 ⟨h1, h2, d, s, hd, hs, rfl, hm⟩, ?_, rfl, rfl⟩
    have e1 := h.sens_lookup (mem_sides.2 ⟨d, List.mem_of_getElem? hd, hs⟩)
    rw [List.getD, e1]; exact hn

/-- The value jobs: keys and data. -/
theorem mem_valueJobs {ds : List (Dataset α)} {x : Idx} {mx : Nat} (h : IdxFacts ds x mx) (hc : ConsistentFiles ds)
    {j : (Nat × Nat × Nat) × Py (List α)} : j ∈ valueJobs ds x ↔
      ∃ i d s c, ds[i]? = some d ∧ (s = d.s1 ∨ s = d.s2) ∧ c < s.m ∧
        j = ((x.sensors.idxOf s.name, i + 1, c + 1), .ok (column d.M s.X c)) := by
  unfold valueJobs
  simp only [List.mem_flatMap, List.mem_zipIdx_iff_getElem?, List.mem_map, List.mem_range, Prod.exists,
    h.Im, Dataset.sides, pairList]
  constructor
  · rintro ⟨d, p1, p2, i, hi, s, n, hs, c, hlt, rfl⟩
    rw [List.getElem?_zip_eq_some] at hi
    obtain ⟨hd, hp⟩ := hi
    rw [List.getElem?_map, hd] at hp
    simp only [Option.map_some, Option.some.injEq, Prod.mk.injEq] at hp
    obtain ⟨rfl, rfl⟩ := hp
    simp only [List.zip_cons_cons, List.zip_nil_right, List.mem_cons, Prod.mk.injEq, List.not_mem_nil, or_false] at hs
    have hmem := List.mem_of_getElem? hd
    rcases hs with ⟨rfl, rfl⟩ | ⟨rfl, rfl⟩
    · rw [h.ms_eq hc (mem_sides.2 ⟨d, hmem, .inl rfl⟩)] at hlt
      exact ⟨i, d, d.s1, c, hd, .inl rfl, hlt, by simp [Side.colX, hlt]⟩
    · rw [h.ms_eq hc (mem_sides.2 ⟨d, hmem, .inr rfl⟩)] at hlt
      exact ⟨i, d, d.s2, c, hd, .inr rfl, hlt, by simp [Side.colX, hlt]⟩
  · rintro ⟨i, d, s, c, hd, hs, hlt, rfl⟩
    have hmem := List.mem_of_getElem? hd
    refine ⟨d, x.sensors.idxOf d.s1.name, x.sensors.idxOf d.s2.name, i, ?_, s, x.sensors.idxOf s.name, ?_, c, ?_, ?_⟩
    · rw [List.getElem?_zip_eq_some, List.getElem?_map, hd]; simp
    · rcases hs with rfl | rfl <;> simp
    · rw [h.ms_eq hc (mem_sides.2 ⟨d, hmem, hs⟩)]; exact hlt
    · simp [Side.colX, hlt]

theorem valueJobs_nodup {ds : List (Dataset α)} {x : Idx} {mx : Nat} (h : IdxFacts ds x mx) (hc : ConsistentFiles ds) :
    ((valueJobs ds x).map (·.1)).Nodup := by
  unfold valueJobs
  simp only [map_flatMap', List.map_map, Function.comp_def]
  rw [List.nodup_flatMap]
  constructor
  · rintro ⟨⟨d, p⟩, i⟩ hmem
    rw [List.mem_zipIdx_iff_getElem?, List.getElem?_zip_eq_some] at hmem
    have hp : p.1 ≠ p.2 := h.pair_ne hc p (List.mem_of_getElem? hmem.2)
    simp only [Dataset.sides, pairList, List.zip_cons_cons, List.zip_nil_right, List.flatMap_cons, List.flatMap_nil,
      List.append_nil]
    rw [List.nodup_append]
    refine ⟨?_, ?_, ?_⟩
    · exact List.Nodup.map (fun a b h => by simpa using h) List.nodup_range
    · exact List.Nodup.map (fun a b h => by simpa using h) List.nodup_range
    · intro a ha b hb
      obtain ⟨c, _, rfl⟩ := List.mem_map.1 ha
      obtain ⟨c', _, rfl⟩ := List.mem_map.1 hb
      simp [hp]
  · have : ((ds.zip x.Im).zipIdx).Pairwise (fun a b => a.2 ≠ b.2) := by
      rw [← List.pairwise_map (f := Prod.snd) (R := fun a b => a ≠ b)]
      simp only [List.zipIdx_map_snd]
      exact List.nodup_range'
    refine this.imp ?_
    intro a b hab y hy hz
    simp only [List.mem_flatMap, List.mem_map] at hy hz
    obtain ⟨_, _, _, _, rfl⟩ := hy
    obtain ⟨_, _, _, _, h⟩ := hz
    simp only [Prod.mk.injEq] at h
    omega

/-- Reading the values succeeds, has the right length, and every block holds its file column. -/
theorem openValues_spec [Zero α] {ds : List (Dataset α)} {x : Idx} {mx : Nat} (h : IdxFacts ds x mx)
    (hc : ConsistentFiles ds) :
    ∃ out, openValues ds x = .ok out ∧ out.length = x.N_var.sum ∧
      ∀ i d s c b, ds[i]? = some d → (s = d.s1 ∨ s = d.s2) → c < s.m →
        x.blocks[b]? = some (x.sensors.idxOf s.name, i + 1, c + 1) →
        slice out (x.N_var.take b).sum (x.N_var.take (b+1)).sum = column d.M s.X c := by
  unfold openValues
  have hl : pyGet x.idx (x.idx.length - 1) = .ok x.N_var.sum := by
    rw [h.idx, prefixSums_length, Nat.add_sub_cancel, pyGet, prefixSums_getElem?_of_le _ (Nat.le_refl _)]
    simp
  rw [hl]
  simp only [bind, Except.bind]
  rw [h.idx]
  obtain ⟨out, h1, h2, h3, h4⟩ := writeBlocks_ok (h.nodup hc) h.N_var_length (valueJobs ds x) (by
    intro j hj
    obtain ⟨i, d, s, c, hd, hs, hlt, rfl⟩ := (mem_valueJobs h hc).1 hj
    have hb : (x.sensors.idxOf s.name, i + 1, c + 1) ∈ x.blocks :=
      (h.mem_blocks hc).2 ⟨by omega, by omega, d, s, by simpa using hd, hs, rfl, by omega⟩
    obtain ⟨b, hb⟩ := List.mem_iff_getElem?.1 hb
    exact ⟨b, _, hb, rfl, by rw [column_length]; exact h.N_var_get hb (by simpa using hd)⟩)
    (List.replicate x.N_var.sum 0) (by simp)
  refine ⟨out, h1, h2, ?_⟩
  intro i d s c b hd hs hlt hb
  exact h4 (valueJobs_nodup h hc) _ ((mem_valueJobs h hc).2 ⟨i, d, s, c, hd, hs, hlt, rfl⟩) b _ hb rfl

end Verif
