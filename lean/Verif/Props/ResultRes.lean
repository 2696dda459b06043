import Verif.Lemmas.ResultRead
import Verif.Props.ResultNames
/-
Property C43: the structure rebuilt from residual files. Property C40: residuals written and read back.
-/
set_option autoImplicit false
namespace Verif
variable {α : Type}

theorem ResFacts.lookup {fs : List (ResFile α)} {x : Idx} {mx : Nat} (h : ResFacts fs x mx) {f : ResFile α} (hf : f ∈ fs) {s : ResSide α} (hs : s = f.s1 ∨ s = f.s2) :
    x.sensors[x.sensors.idxOf s.name]? = some s.name := by
  have : s.name ∈ x.sensors := (h.mem _).2 ⟨f, hf, by rcases hs with rfl | rfl <;> simp⟩
  rw [List.getElem?_eq_getElem (List.idxOf_lt_length_of_mem this)]; simp

theorem ResFacts.ms {fs : List (ResFile α)} {x : Idx} {mx : Nat} (h : ResFacts fs x mx) (hc : ConsistentRes fs) {f : ResFile α} (hf : f ∈ fs) {s : ResSide α}
    (hs : s = f.s1 ∨ s = f.s2) : x.sensor_ms[x.sensors.idxOf s.name]? = some (s.m (resAvailable fs)) := by
  obtain ⟨g, hg, t, ht, hn, hm⟩ := h.first _ _ (h.lookup hf hs)
  rw [hm]
  have := hc.2 g hg f hf t (by rcases ht with rfl | rfl <;> simp) s (by rcases hs with rfl | rfl <;> simp) hn
  simp only [ResSide.m, this]

theorem ResFacts.pair_ne {fs : List (ResFile α)} {x : Idx} {mx : Nat} (h : ResFacts fs x mx) (hn : ∀ f ∈ fs, f.s1.name ≠ f.s2.name) : ∀ p ∈ x.Im, p.1 ≠ p.2 := by
  intro p hp
  rw [h.Im] at hp
  obtain ⟨f, hf, rfl⟩ := List.mem_map.1 hp
  intro he
  have e1 := h.lookup hf (s := f.s1) (.inl rfl)
  have e2 := h.lookup hf (s := f.s2) (.inr rfl)
  simp only at he
  rw [he, e2] at e1
  exact hn f hf (Option.some.inj e1).symm

theorem mem_resJobs {fs : List (ResFile α)} {x : Idx} {mx : Nat} (h : ResFacts fs x mx) {j : (Nat × Nat × Nat) × Py (List α)} : j ∈ resJobs fs x ↔
    ∃ i f s m X c, fs[i]? = some f ∧ (s = f.s1 ∨ s = f.s2) ∧ s.X = some (m, X) ∧ c < m ∧
      j = ((x.sensors.idxOf s.name, i + 1, c + 1), .ok (column f.M X c)) := by
  unfold resJobs
  simp only [List.mem_flatMap, List.mem_zipIdx_iff_getElem?, Prod.exists, h.Im, pairList]
  constructor
  · rintro ⟨f, p1, p2, i, hi, s, n, hs, hj⟩
    rw [List.getElem?_zip_eq_some] at hi
    obtain ⟨hd, hp⟩ := hi
    rw [List.getElem?_map, hd] at hp
    simp only [Option.map_some, Option.some.injEq, Prod.mk.injEq] at hp
    obtain ⟨rfl, rfl⟩ := hp
    simp only [List.zip_cons_cons, List.zip_nil_right, List.mem_cons, Prod.mk.injEq, List.not_mem_nil, or_false] at hs
    unfold resSideJobs at hj
    cases hX : s.X with
    | none => rw [hX] at hj; simp at hj
    | some q =>
      obtain ⟨m, X⟩ := q
      rw [hX] at hj
      simp only [List.mem_map, List.mem_range] at hj
      obtain ⟨c, hc, rfl⟩ := hj
      rcases hs with ⟨rfl, rfl⟩ | ⟨rfl, rfl⟩
      · exact ⟨i, f, f.s1, m, X, c, hd, .inl rfl, hX, hc, rfl⟩
      · exact ⟨i, f, f.s2, m, X, c, hd, .inr rfl, hX, hc, rfl⟩
  · rintro ⟨i, f, s, m, X, c, hd, hs, hX, hc, rfl⟩
    refine ⟨f, x.sensors.idxOf f.s1.name, x.sensors.idxOf f.s2.name, i, ?_, s, x.sensors.idxOf s.name, ?_, ?_⟩
    · rw [List.getElem?_zip_eq_some, List.getElem?_map, hd]; simp
    · rcases hs with rfl | rfl <;> simp
    · unfold resSideJobs; rw [hX]; exact List.mem_map.2 ⟨c, List.mem_range.2 hc, rfl⟩

theorem resJobs_nodup {fs : List (ResFile α)} {x : Idx} {mx : Nat} (h : ResFacts fs x mx) (hn : ∀ f ∈ fs, f.s1.name ≠ f.s2.name) :
    ((resJobs fs x).map (·.1)).Nodup := by
  have hside : ∀ (s : ResSide α) (n i M : Nat), (resSideJobs n i M s).map (·.1) =
      (List.range ((s.X.map (·.1)).getD 0)).map fun c => (n, i + 1, c + 1) := by
    intro s n i M
    unfold resSideJobs
    cases s.X with
    | none => rfl
    | some q => simp [List.map_map, Function.comp_def]
  unfold resJobs
  simp only [map_flatMap', hside]
  rw [List.nodup_flatMap]
  constructor
  · rintro ⟨⟨d, p⟩, i⟩ hmem
    rw [List.mem_zipIdx_iff_getElem?, List.getElem?_zip_eq_some] at hmem
    have hp : p.1 ≠ p.2 := h.pair_ne hn p (List.mem_of_getElem? hmem.2)
    simp only [pairList, List.zip_cons_cons, List.zip_nil_right, List.flatMap_cons, List.flatMap_nil, List.append_nil]
    rw [List.nodup_append]
    refine ⟨?_, ?_, ?_⟩
    · exact List.Nodup.map (fun a b h => by simpa using h) List.nodup_range
    · exact List.Nodup.map (fun a b h => by simpa using h) List.nodup_range
    · intro a ha b hb
      obtain ⟨c, _, rfl⟩ := List.mem_map.1 ha
      obtain ⟨c', _, rfl⟩ := List.mem_map.1 hb
      simp [hp]
  · have : ((fs.zip x.Im).zipIdx).Pairwise (fun a b => a.2 ≠ b.2) := by
      rw [← List.pairwise_map (f := Prod.snd) (R := fun a b => a ≠ b)]
      simp only [List.zipIdx_map_snd]
      exact List.nodup_range'
    refine this.imp ?_
    intro a b hab y hy hz
    simp only [List.mem_flatMap, List.mem_map] at hy hz
    obtain ⟨_, _, _, _, rfl⟩ := hy
    obtain ⟨_, _, _, _, h⟩ := hz
    simp only [Prod.mk.injEq] at h
    omega

/-- Membership in the rebuilt blocks in terms of the files, when the first sensor has one covariate. -/
theorem ResFacts.mem_blocks {fs : List (ResFile α)} {x : Idx} {mx : Nat} (h : ResFacts fs x mx) (hc : ConsistentRes fs) (hav : resAvailable fs = true)
    (h1 : ∀ f0, fs.head? = some f0 → f0.s1.X.map (·.1) = some 1) {a i c : Nat} :
    (a, i, c) ∈ x.blocks ↔ 1 ≤ i ∧ 1 ≤ c ∧ ∃ f s m, fs[i - 1]? = some f ∧ (s = f.s1 ∨ s = f.s2) ∧ a = x.sensors.idxOf s.name ∧ s.X.map (·.1) = some m ∧ c ≤ m := by
  rw [h.blocks hav, mem_resBlocks]
  have hside : ∀ f ∈ fs, ∀ s, (s = f.s1 ∨ s = f.s2) → ∃ m, s.X.map (·.1) = some m ∧ x.sensor_ms[x.sensors.idxOf s.name]? = some m := by
    intro f hf s hs
    have hh := h.ms hc hf hs
    have : s.X.isSome := by
      have := List.all_eq_true.1 hav f hf
      simp only [Bool.and_eq_true] at this
      rcases hs with rfl | rfl
      · exact this.1
      · exact this.2
    obtain ⟨q, hq⟩ := Option.isSome_iff_exists.1 this
    refine ⟨q.1, by rw [hq]; rfl, ?_⟩
    rw [hh, hav]; simp [ResSide.m, hq]
  have hget : ∀ (i : Nat) (p : Nat × Nat), x.Im[i]? = some p → ∃ f : ResFile α, fs[i]? = some f ∧ p = (x.sensors.idxOf f.s1.name, x.sensors.idxOf f.s2.name) := by
    intro i p hp
    rw [h.Im, List.getElem?_map] at hp
    obtain ⟨f, hf, rfl⟩ := Option.map_eq_some_iff.1 hp
    exact ⟨f, hf, rfl⟩
  have hzero : ∀ f ∈ fs, ∀ s, (s = f.s1 ∨ s = f.s2) → x.sensors.idxOf s.name = 0 → s.X.map (·.1) = some 1 := by
    intro f hf s hs h0
    obtain ⟨f0, hf0⟩ : ∃ f0, fs.head? = some f0 := by cases fs with
      | nil => cases hf
      | cons a l => exact ⟨a, rfl⟩
    have e1 := h.lookup hf hs
    rw [h0, h.zero f0 hf0] at e1
    have hm0 : f0 ∈ fs := List.mem_of_mem_head? hf0
    rw [← hc.2 f0 hm0 f hf f0.s1 (by simp) s (by rcases hs with rfl | rfl <;> simp) (Option.some.inj e1)]
    exact h1 f0 hf0
  constructor
  · rintro (⟨rfl, rfl, hi, p, hp, h0⟩ | ⟨ha, hb⟩)
    · obtain ⟨f, hf, rfl⟩ := hget _ _ hp
      rcases h0 with h0 | h0
      · exact ⟨hi, le_rfl, f, f.s1, 1, hf, .inl rfl, h0, hzero f (List.mem_of_getElem? hf) _ (.inl rfl) h0.symm, le_rfl⟩
      · exact ⟨hi, le_rfl, f, f.s2, 1, hf, .inr rfl, h0, hzero f (List.mem_of_getElem? hf) _ (.inr rfl) h0.symm, le_rfl⟩
    · obtain ⟨b1, b2, b3, b4, p, hp, h0⟩ := mem_blockList.1 hb
      obtain ⟨f, hf, rfl⟩ := hget _ _ hp
      have hfm := List.mem_of_getElem? hf
      rcases h0 with rfl | rfl
      · obtain ⟨m, e1, e2⟩ := hside f hfm f.s1 (.inl rfl)
        exact ⟨b4, b1, f, f.s1, m, hf, .inl rfl, rfl, e1, by simpa [List.getD, e2] using b3⟩
      · obtain ⟨m, e1, e2⟩ := hside f hfm f.s2 (.inr rfl)
        exact ⟨b4, b1, f, f.s2, m, hf, .inr rfl, rfl, e1, by simpa [List.getD, e2] using b3⟩
  · rintro ⟨hi, hc1, f, s, m, hf, hs, rfl, hm, hcm⟩
    have hfm := List.mem_of_getElem? hf
    have hIm : x.Im[i - 1]? = some (x.sensors.idxOf f.s1.name, x.sensors.idxOf f.s2.name) := by rw [h.Im, List.getElem?_map, hf]; rfl
    by_cases h0 : x.sensors.idxOf s.name = 0
    · have := hzero f hfm s hs h0
      rw [hm] at this
      cases this
      refine .inl ⟨h0, by omega, hi, _, hIm, ?_⟩
      rcases hs with rfl | rfl
      · exact .inl h0.symm
      · exact .inr h0.symm
    · obtain ⟨m', e1, e2⟩ := hside f hfm s hs
      rw [hm] at e1; cases e1
      refine .inr ⟨h0, mem_blockList.2 ⟨hc1, le_trans hcm (h.mx_ge _ (List.mem_of_getElem? e2)), by simpa [List.getD, e2] using hcm, hi, _, hIm, ?_⟩⟩
      rcases hs with rfl | rfl
      · exact .inl rfl
      · exact .inr rfl

/-- **C43.** Residual files of a consistent set, in whatever order they are listed, are opened when the first sensor of the first file has one covariate (or no `X`
residuals are present). The sensor pairs decode to the sensors of each file; the K residuals of each file are found between its boundaries; every block of the rebuilt
structure is one column of one file and holds its values, every column has one block, and nothing else is in the array. -/
theorem C43_structure [Zero α] {fs : List (ResFile α)} (hne : fs ≠ []) (hc : ConsistentRes fs)
    (h1 : resAvailable fs = true → ∀ f0, fs.head? = some f0 → f0.s1.X.map (·.1) = some 1) :
    ∃ o, openResiduals fs = .ok o ∧ o.idx.Nm = fs.map (·.M) ∧ o.idx.sensors.Nodup ∧
      (∀ (i : Nat) (f : ResFile α), fs[i]? = some f → ∃ a b, o.idx.Im[i]? = some (a, b) ∧ o.idx.sensors[a]? = some f.s1.name ∧ o.idx.sensors[b]? = some f.s2.name ∧
        ∃ lo hi, o.idx.cNm[i]? = some lo ∧ o.idx.cNm[i + 1]? = some hi ∧ slice o.ks lo hi = f.k) ∧
      o.ks.length = (fs.map (·.M)).sum ∧
      (resAvailable fs = false → o.values = none) ∧
      (resAvailable fs = true → ∃ v, o.values = some v ∧ o.idx.blocks.Nodup ∧ v.length = o.idx.N_var.sum ∧ o.idx.idx = prefixSums o.idx.N_var ∧
        (∀ (i : Nat) (f : ResFile α) (s : ResSide α) (m : Nat) (X : Nat → Nat → α) (c : Nat), fs[i]? = some f → (s = f.s1 ∨ s = f.s2) → s.X = some (m, X) → c < m →
          ∃ (b : Nat) (a lo hi : Nat), o.idx.blocks[b]? = some (a, i + 1, c + 1) ∧ o.idx.sensors[a]? = some s.name ∧
            o.idx.idx[b]? = some lo ∧ o.idx.idx[b + 1]? = some hi ∧ slice v lo hi = column f.M X c) ∧
        ∀ (b a i c : Nat), o.idx.blocks[b]? = some (a, i, c) → 1 ≤ i ∧ 1 ≤ c ∧ ∃ f s m X, fs[i - 1]? = some f ∧ (s = f.s1 ∨ s = f.s2) ∧
          o.idx.sensors[a]? = some s.name ∧ s.X = some (m, X) ∧ c ≤ m) := by
  obtain ⟨x, mx, hx, h⟩ := resIdx_facts hne (fun f hf => (hc.1 f hf).1)
  obtain ⟨f0, hf0⟩ : ∃ f0, fs[0]? = some f0 := by cases fs with
    | nil => exact absurd rfl hne
    | cons a l => exact ⟨a, rfl⟩
  have hk : openSeries (List.replicate (fs.map (·.M)).sum 0) x.cNm (fs.map (·.k)) = .ok (fs.map (·.k)).flatten := by
    rw [h.cNm]
    apply openSeries_ok _ _ _ _ (by simp)
    rw [List.map_map]
    exact List.map_congr_left fun f hf => (hc.1 f hf).2.symm
  have hkl : (fs.map (·.M)) = (fs.map (·.k)).map List.length := by
    rw [List.map_map]
    exact List.map_congr_left fun f hf => (hc.1 f hf).2.symm
  have hcn : pyGet x.cNm (x.cNm.length - 1) = .ok (fs.map (·.M)).sum := by
    rw [h.cNm, prefixSums_length, Nat.add_sub_cancel, pyGet_prefixSums _ (Nat.le_refl _), List.take_length]
  have hval : ∃ vs, resValues fs x = .ok vs ∧ (resAvailable fs = false → vs = none) ∧ (resAvailable fs = true → ∃ v, vs = some v ∧ v.length = x.N_var.sum ∧
      ∀ (i : Nat) (f : ResFile α) (s : ResSide α) (m : Nat) (X : Nat → Nat → α) (c : Nat), fs[i]? = some f → (s = f.s1 ∨ s = f.s2) → s.X = some (m, X) → c < m →
          ∃ b : Nat, x.blocks[b]? = some (x.sensors.idxOf s.name, i + 1, c + 1) ∧
            slice v (x.N_var.take b).sum (x.N_var.take (b + 1)).sum = column f.M X c) := by
    unfold resValues
    cases hav : resAvailable fs with
    | false => simp only [Bool.false_eq_true, if_false]; exact ⟨none, rfl, fun _ => rfl, fun h => by cases h⟩
    | true =>
      simp only [if_true]
      have hl : pyGet x.idx (x.idx.length - 1) = .ok x.N_var.sum := by
        rw [h.idx hav, prefixSums_length, Nat.add_sub_cancel, pyGet_prefixSums _ (Nat.le_refl _), List.take_length]
      have hbn : x.blocks.Nodup := by rw [h.blocks hav]; exact resBlocks_nodup (h.pair_ne fun f hf => (hc.1 f hf).1)
      have hlen : x.N_var.length = x.blocks.length := by rw [h.N_var hav, h.n_mu hav, h.blocks hav]; simp
      have hNb : ∀ (b a i c : Nat) (f : ResFile α), x.blocks[b]? = some (a, i + 1, c) → fs[i]? = some f → x.N_var[b]? = some f.M := by
        intro b a i c f hb hf
        rw [h.N_var hav, h.n_mu hav, ← h.blocks hav, List.getElem?_map, List.getElem?_map, hb]
        simp [List.getD, List.getElem?_map, hf]
      have hjob : ∀ (i : Nat) (f : ResFile α) (s : ResSide α) (m : Nat) (X : Nat → Nat → α) (c : Nat), fs[i]? = some f → (s = f.s1 ∨ s = f.s2) → s.X = some (m, X) →
          c < m → ∃ b : Nat, x.blocks[b]? = some (x.sensors.idxOf s.name, i + 1, c + 1) ∧ x.N_var[b]? = some f.M := by
        intro i f s m X c hf hs hX hcm
        have : (x.sensors.idxOf s.name, i + 1, c + 1) ∈ x.blocks :=
          (h.mem_blocks hc hav (h1 hav)).2 ⟨by omega, by omega, f, s, m, by simpa using hf, hs, rfl, by rw [hX]; rfl, by omega⟩
        obtain ⟨b, hb⟩ := List.mem_iff_getElem?.1 this
        exact ⟨b, hb, hNb _ _ _ _ _ hb hf⟩
      obtain ⟨out, g1, g2, g3, g4⟩ := writeBlocks_ok hbn hlen (resJobs fs x) (by
        intro j hj
        obtain ⟨i, f, s, m, X, c, hf, hs, hX, hcm, rfl⟩ := (mem_resJobs h).1 hj
        obtain ⟨b, e1, e2⟩ := hjob i f s m X c hf hs hX hcm
        exact ⟨b, _, e1, rfl, by rw [column_length]; exact e2⟩) (List.replicate x.N_var.sum 0) (by simp)
      rw [← h.idx hav] at g1
      refine ⟨some out, ?_, (fun h => by cases h), (fun _ => ⟨out, rfl, g2, ?_⟩)⟩
      · exact bind_ok.2 ⟨_, hl, bind_ok.2 ⟨out, g1, rfl⟩⟩
      intro i f s m X c hf hs hX hcm
      obtain ⟨b, e1, e2⟩ := hjob i f s m X c hf hs hX hcm
      exact ⟨b, e1, g4 (resJobs_nodup h fun f hf => (hc.1 f hf).1) _ ((mem_resJobs h).2 ⟨i, f, s, m, X, c, hf, hs, hX, hcm, rfl⟩) b _ e1 rfl⟩
  obtain ⟨vs, hv1, hv2, hv3⟩ := hval
  have hopen : openResiduals fs = .ok { values := vs, ks := (fs.map (·.k)).flatten, idx := x, attrs := [("sensor_1_name", .str f0.s1.name), ("sensor_2_name", .str f0.s2.name)] } := by
    unfold openResiduals
    refine bind_ok.2 ⟨f0, by rw [pyGet, hf0], bind_ok.2 ⟨x, hx, bind_ok.2 ⟨vs, hv1, bind_ok.2 ⟨_, hcn, bind_ok.2 ⟨_, hk, rfl⟩⟩⟩⟩⟩
  refine ⟨_, hopen, h.Nm, h.nodup, ?_, ?_, hv2, ?_⟩
  · intro i f hf
    have hfm := List.mem_of_getElem? hf
    have hil : i < fs.length := (List.getElem?_eq_some_iff.1 hf).1
    refine ⟨_, _, by simp only; rw [h.Im, List.getElem?_map, hf]; rfl, h.lookup hfm (s := f.s1) (.inl rfl), h.lookup hfm (s := f.s2) (.inr rfl),
      ((fs.map (·.M)).take i).sum, ((fs.map (·.M)).take (i + 1)).sum, ?_, ?_, ?_⟩
    · simp only [h.cNm]; exact prefixSums_getElem?_of_le _ (by simp; omega)
    · simp only [h.cNm]; exact prefixSums_getElem?_of_le _ (by simp; omega)
    · simp only; rw [hkl]; exact slice_flatten _ (by rw [List.getElem?_map, hf]; rfl)
  · simp only; rw [List.length_flatten, hkl]
  · intro hav
    obtain ⟨v, rfl, e2, e3⟩ := hv3 hav
    refine ⟨v, rfl, ?_, e2, h.idx hav, ?_, ?_⟩
    · simp only; rw [h.blocks hav]; exact resBlocks_nodup (h.pair_ne fun f hf => (hc.1 f hf).1)
    · intro i f s m X c hf hs hX hcm
      obtain ⟨b, g1, g2⟩ := e3 i f s m X c hf hs hX hcm
      have hbl : b < x.N_var.length := by
        have := (List.getElem?_eq_some_iff.1 g1).1
        have hlen : x.N_var.length = x.blocks.length := by rw [h.N_var hav, h.n_mu hav, h.blocks hav]; simp
        omega
      exact ⟨b, _, _, _, g1, h.lookup (List.mem_of_getElem? hf) hs, by simp only [h.idx hav]; exact prefixSums_getElem?_of_le _ (by omega),
        by simp only [h.idx hav]; exact prefixSums_getElem?_of_le _ (by omega), g2⟩
    · intro b a i c hb
      obtain ⟨i1, c1, f, s, m, hf, hs, rfl, hm, hcm⟩ := (h.mem_blocks hc hav (h1 hav)).1 (List.mem_of_getElem? hb)
      obtain ⟨q, hq, hqm⟩ := Option.map_eq_some_iff.1 hm
      exact ⟨i1, c1, f, s, q.1, q.2, hf, hs, h.lookup (List.mem_of_getElem? hf) hs, hq, by rw [hqm]; exact hcm⟩

/-- **C43, C40 are false of the code** when the first sensor of the first file listed has two or more covariates: it is taken for a reference with one, and the
reader raises `ValueError`. The order of the files is that of `listdir`, which is arbitrary. -/
theorem C43_first_sensor_fails [Zero α] {fs : List (ResFile α)} (hc : ConsistentRes fs) (hav : resAvailable fs = true) {f0 : ResFile α} (hf0 : fs.head? = some f0)
    {m : Nat} (hm : f0.s1.X.map (·.1) = some m) (h2 : 2 ≤ m) : openResiduals fs = .error .valueError := by
  have hne : fs ≠ [] := by rintro rfl; cases hf0
  obtain ⟨x, mx, hx, h⟩ := resIdx_facts hne (fun f hf => (hc.1 f hf).1)
  obtain ⟨rest, rfl⟩ : ∃ rest, fs = f0 :: rest := by cases fs with
    | nil => cases hf0
    | cons a l => cases hf0; exact ⟨l, rfl⟩
  obtain ⟨⟨m', X⟩, hX, rfl⟩ := Option.map_eq_some_iff.1 hm
  have hm0 : f0 ∈ f0 :: rest := by simp
  have hidx0 : x.sensors.idxOf f0.s1.name = 0 := by
    have e := h.zero f0 rfl
    exact idxOf_of_getElem? h.nodup e
  have hidx2 : x.sensors.idxOf f0.s2.name ≠ 0 := by
    intro e
    have := h.lookup hm0 (s := f0.s2) (.inr rfl)
    rw [e, h.zero f0 rfl] at this
    exact (hc.1 f0 hm0).1 (Option.some.inj this)
  have hIm0 : x.Im[0]? = some (0, x.sensors.idxOf f0.s2.name) := by rw [h.Im]; simp [hidx0]
  have hbn : x.blocks.Nodup := by rw [h.blocks hav]; exact resBlocks_nodup (h.pair_ne fun f hf => (hc.1 f hf).1)
  have hlen : x.N_var.length = x.blocks.length := by rw [h.N_var hav, h.n_mu hav, h.blocks hav]; simp
  have hin : (0, 1, 1) ∈ x.blocks := by rw [h.blocks hav]; exact mem_resBlocks.2 (.inl ⟨rfl, rfl, le_rfl, _, hIm0, .inl rfl⟩)
  have hout : (0, 1, 2) ∉ x.blocks := by
    rw [h.blocks hav]
    intro hh
    rcases mem_resBlocks.1 hh with ⟨_, h, _⟩ | ⟨h, _⟩
    · omega
    · exact h rfl
  obtain ⟨b, hb⟩ := List.mem_iff_getElem?.1 hin
  have hNb : x.N_var[b]? = some f0.M := by
    rw [h.N_var hav, h.n_mu hav, ← h.blocks hav, List.getElem?_map, List.getElem?_map, hb]
    simp
  obtain ⟨js, hjs⟩ : ∃ js, resJobs (f0 :: rest) x = ((0, 1, 1), .ok (column f0.M X 0)) :: ((0, 1, 2), .ok (column f0.M X 1)) :: js := by
    obtain ⟨ims, hims⟩ : ∃ ims, x.Im = (0, x.sensors.idxOf f0.s2.name) :: ims := by
      cases e : x.Im with
      | nil => rw [e] at hIm0; cases hIm0
      | cons a l => rw [e] at hIm0; simp at hIm0; exact ⟨l, by rw [hIm0]⟩
    obtain ⟨k, rfl⟩ : ∃ k, m' = k + 2 := ⟨m' - 2, by simp only at h2; omega⟩
    have hr : List.range (k + 2) = 0 :: 1 :: (List.range k).map (fun c => c + 2) := by
      rw [List.range_succ_eq_map, List.range_succ_eq_map]; simp [Function.comp_def]
    have hx0 : resJobs (f0 :: rest) x = resSideJobs 0 0 f0.M f0.s1 ++ (resSideJobs (x.sensors.idxOf f0.s2.name) 0 f0.M f0.s2 ++
        ((rest.zip ims).zipIdx 1).flatMap fun fi =>
        ([fi.1.1.s1, fi.1.1.s2].zip (pairList fi.1.2)).flatMap fun ss => resSideJobs ss.2 fi.2 fi.1.1.M ss.1) := by
      unfold resJobs
      rw [hims, List.zip_cons_cons, List.zipIdx_cons, List.flatMap_cons]
      simp only [pairList, List.zip_cons_cons, List.zip_nil_right, List.flatMap_cons, List.flatMap_nil, List.append_nil, List.append_assoc, Nat.zero_add]
    rw [hx0]
    have hj0 : resSideJobs 0 0 f0.M f0.s1 = (List.range (k + 2)).map fun c => ((0, 0 + 1, c + 1), .ok (column f0.M X c)) := by
      unfold resSideJobs; rw [hX]
    rw [hj0]
    simp only [hr, List.map_cons, List.cons_append]
    exact ⟨_, rfl⟩
  have hl : pyGet x.idx (x.idx.length - 1) = .ok x.N_var.sum := by
    rw [h.idx hav, prefixSums_length, Nat.add_sub_cancel, pyGet_prefixSums _ (Nat.le_refl _), List.take_length]
  have hv : resValues (f0 :: rest) x = .error .valueError := by
    unfold resValues
    rw [hav, if_pos rfl, hl, hjs]
    have e1 := writeBlock_eq (vals := List.replicate x.N_var.sum (0 : α)) hbn hlen (by simp) hb (d := column f0.M X 0) (by rw [column_length]; exact hNb)
    rw [← h.idx hav] at e1
    have e2 : ∀ vals : List α, writeBlock x.blocks x.idx vals ((0, 1, 2), .ok (column f0.M X 1)) = .error .valueError := by
      intro vals
      unfold writeBlock pyIndex
      rw [if_neg hout]; rfl
    simp only [List.foldlM_cons, bind, Except.bind, e1, e2]
  unfold openResiduals
  simp only [pyGet, List.getElem?_cons_zero, hx, hv, bind, Except.bind]

end Verif
