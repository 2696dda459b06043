import Verif.Spec.Order
import Verif.Props.Sound
/-
The blocks of an opened match-up, and the covariance declared for them, in terms of the files.
-/
set_option autoImplicit false
namespace Verif
variable {α δ : Type} [Field α] [DecidableEq α]

section
variable {env : ReadEnv α δ} {ds : List (Dataset α)} {mu : MatchUp α δ}

theorem opened_tables (h : openMatchUp env ds = .ok mu) : ∃ x mx, IdxFacts ds x mx ∧ openValues ds x = .ok mu.values ∧ mu.idx.sensors = x.sensors ∧
    mu.idx.blocks = x.blocks ∧ mu.idx.N_var = x.N_var ∧ mu.idx.Im = x.Im ∧ mu.idx.Nm = x.Nm ∧ mu.idx.n_sensor = x.n_sensor ∧ mu.idx.n_cov = x.n_cov ∧ mu.idx.n_mu = x.n_mu ∧
    mu.idx.sensor_ms = x.sensor_ms := by
  obtain ⟨x, mx, hx, hi⟩ := getIdx_facts (openMatchUp_nonempty h)
  obtain ⟨x', hx', hv, _, _, _, _, _, _, _, _, _, _, hidx, _⟩ := openMatchUp_inv h
  rw [hx] at hx'; cases hx'
  refine ⟨x, mx, hi, hv, ?_⟩
  rw [hidx]
  exact ⟨rfl, rfl, rfl, rfl, rfl, rfl, rfl, rfl, rfl⟩

theorem HasSide.unique {d : Dataset α} (hc : d.s1.name ≠ d.s2.name) {s s' : Side α} (h : d.HasSide s) (h' : d.HasSide s') (hn : s.name = s'.name) : s = s' := by
  rcases h with rfl | rfl <;> rcases h' with rfl | rfl
  · rfl
  · exact absurd hn hc
  · exact absurd hn.symm hc
  · rfl

/-- Every column of every file has a block. -/
theorem blockOf_exists (hc : ConsistentFiles ds) (h : openMatchUp env ds = .ok mu) {i : Nat} {d : Dataset α} {s : Side α} {c : Nat} (hd : ds[i]? = some d) (hs : d.HasSide s)
    (hlt : c < s.m) : ∃ b, mu.BlockOf ds b i d s c := by
  obtain ⟨x, mx, hi, _, b1, b2, _⟩ := opened_tables h
  have hm := mem_sides.2 ⟨d, List.mem_of_getElem? hd, hs⟩
  have : (x.sensors.idxOf s.name, i + 1, c + 1) ∈ x.blocks := (hi.mem_blocks hc).2 ⟨by omega, by omega, d, s, hd, hs, rfl, hlt⟩
  obtain ⟨b, hb⟩ := List.mem_iff_getElem?.1 this
  exact ⟨b, hd, hs, hlt, _, by rw [b2, hb], by rw [b1]; exact hi.sens_lookup hm⟩

/-- Every block is that of a column of a file. -/
theorem blockOf_of (hc : ConsistentFiles ds) (h : openMatchUp env ds = .ok mu) {b : Nat} (hb : b < mu.numBlocks) : ∃ i d s c, mu.BlockOf ds b i d s c := by
  obtain ⟨x, mx, hi, _, b1, b2, b3, _⟩ := opened_tables h
  have hbl : b < x.blocks.length := by
    unfold MatchUp.numBlocks at hb
    rw [b3, hi.N_var_length] at hb
    exact hb
  obtain ⟨⟨n, k, c⟩, hk⟩ : ∃ k, x.blocks[b]? = some k := ⟨_, List.getElem?_eq_getElem hbl⟩
  obtain ⟨h1, h2, d, s, hd, hs, hn, hcm⟩ := (hi.mem_blocks hc).1 (List.mem_of_getElem? hk)
  refine ⟨k - 1, d, s, c - 1, hd, hs, by omega, n, ?_, ?_⟩
  · rw [b2, hk, Nat.sub_add_cancel h1, Nat.sub_add_cancel h2]
  · rw [b1, hn]
    exact hi.sens_lookup (mem_sides.2 ⟨d, List.mem_of_getElem? hd, hs⟩)

variable {b b' i i' c c' : Nat} {d d' : Dataset α} {s s' : Side α}

theorem MatchUp.BlockOf.place (h : openMatchUp env ds = .ok mu) (hb : mu.BlockOf ds b i d s c) : mu.idx.blocks[b]? = some (mu.idx.sensors.idxOf s.name, i + 1, c + 1) := by
  obtain ⟨x, mx, hi, _, b1, b2, _⟩ := opened_tables h
  obtain ⟨_, _, _, n, h1, h2⟩ := hb
  have h3 : mu.idx.sensors.idxOf s.name = n := by
    obtain ⟨hlt, he⟩ := List.getElem?_eq_some_iff.1 h2
    rw [← he]
    refine List.Nodup.idxOf_getElem ?_ _ hlt
    rw [b1]; exact hi.sens_nodup
  rw [h1, h3]

theorem MatchUp.BlockOf.lt (h : openMatchUp env ds = .ok mu) (hb : mu.BlockOf ds b i d s c) : b < mu.numBlocks := by
  obtain ⟨x, mx, hi, _, b1, b2, b3, _⟩ := opened_tables h
  have := (List.getElem?_eq_some_iff.1 (hb.place h)).1
  unfold MatchUp.numBlocks
  rw [b3, hi.N_var_length, ← b2]
  exact this

/-- A column has one block only. -/
theorem MatchUp.BlockOf.inj (hc : ConsistentFiles ds) (h : openMatchUp env ds = .ok mu) (hb : mu.BlockOf ds b i d s c) (hb' : mu.BlockOf ds b' i d' s' c) (hn : s.name = s'.name) : b = b' := by
  obtain ⟨x, mx, hi, _, b1, b2, _⟩ := opened_tables h
  have e1 := hb.place h
  have e2 := hb'.place h
  rw [← hn] at e2
  rw [b2] at e1 e2
  exact (List.getElem?_inj (List.getElem?_eq_some_iff.1 e1).1 (hi.nodup hc)).1 (e1.trans e2.symm)

/-- A block has one column only. -/
theorem MatchUp.BlockOf.unique (hc : ConsistentFiles ds) (hb : mu.BlockOf ds b i d s c) (hb' : mu.BlockOf ds b i' d' s' c') :
    i = i' ∧ d = d' ∧ s = s' ∧ c = c' := by
  obtain ⟨h1, h2, h3, n, h4, h5⟩ := hb
  obtain ⟨k1, k2, k3, n', k4, k5⟩ := hb'
  rw [h4] at k4
  simp only [Option.some.injEq, Prod.mk.injEq, Nat.add_right_cancel_iff] at k4
  obtain ⟨rfl, rfl, rfl⟩ := k4
  rw [h1] at k1; cases k1
  rw [h5] at k5
  exact ⟨rfl, rfl, HasSide.unique (hc.1 d (List.mem_of_getElem? h1)) h2 k2 (Option.some.inj k5), rfl⟩

theorem MatchUp.BlockOf.size (h : openMatchUp env ds = .ok mu) (hb : mu.BlockOf ds b i d s c) : mu.idx.N_var[b]? = some d.M := by
  obtain ⟨x, mx, hi, _, b1, b2, b3, _⟩ := opened_tables h
  have e := hb.place h
  rw [b2] at e
  rw [b3]
  exact hi.N_var_get e hb.1

theorem MatchUp.BlockOf.len (h : openMatchUp env ds = .ok mu) (hb : mu.BlockOf ds b i d s c) : mu.blockLen b = d.M := by
  simp [MatchUp.blockLen, List.getD, hb.size h]

theorem MatchUp.BlockOf.values (hc : ConsistentFiles ds) (h : openMatchUp env ds = .ok mu) (hb : mu.BlockOf ds b i d s c) :
    slice mu.values (mu.idx.N_var.take b).sum ((mu.idx.N_var.take b).sum + d.M) = column d.M s.X c := by
  obtain ⟨x, mx, hi, hv, b1, b2, b3, _⟩ := opened_tables h
  obtain ⟨out, ho, _, hsl⟩ := openValues_spec hi hc
  rw [hv] at ho; cases ho
  have e := hb.place h
  rw [b2, b1] at e
  have hsz := hb.size h
  have := hsl i d s c b hb.1 hb.2.1 hb.2.2.1 e
  rw [b3] at hsz ⊢
  rwa [take_succ_sum _ hsz] at this

/-- The uncertainty of the block is what the file declares. -/
theorem MatchUp.BlockOf.unc (he : EnumOk env.enumNat) (hc : ConsistentFiles ds) (h : openMatchUp env ds = .ok mu) (hb : mu.BlockOf ds b i d s c) :
    ∃ u, mu.unc[b]? = some u ∧ ((s.utype c = 1 ∧ u.unc = .independent (column d.M s.Ur c)) ∨
       (s.utype c = 2 ∧ u.unc = .systematic (column d.M s.Ur c) (column d.M s.Us c)) ∨
       ∃ (wi ui : Nat) (W : CSR α) (U : List α), d.hasUse = true ∧ mu.w_matrices[wi]? = some (some W) ∧ openW d (s.wUse c) = .ok W ∧
         mu.u_matrices[ui]? = some (some U) ∧ openU d (s.uUse c) = .ok U ∧
         ((s.utype c = 3 ∧ u.unc = .structured wi ui) ∨
          (s.utype c = 4 ∧ 1 < d.M ∧ u.unc = .structuredSystematic wi ui (s.Us 1 c)))) := by
  obtain ⟨x, mx, hi, _, b1, b2, _⟩ := opened_tables h
  obtain ⟨keys, b', ub, hk, hkb, hub, hcase⟩ := C10_declared_uncertainty env he ds hc mu h i d hb.1 s hb.2.1 c hb.2.2.1
  have hnames : mu.idx.nameBlocks = .ok (x.blocks.map fun b => (x.sensors.getD b.1 "", b.2.1, b.2.2)) := by
    obtain ⟨x0, mx0, hx0, hi0⟩ := getIdx_facts (openMatchUp_nonempty h)
    obtain ⟨x', hx', _, _, _, _, _, _, _, _, _, _, _, hidx, _⟩ := openMatchUp_inv h
    rw [hx0] at hx'; cases hx'
    have : mu.idx.nameBlocks = x0.nameBlocks := by rw [hidx]; rfl
    rw [this, hi0.names hc, ← b2, ← b1, hidx]
    rfl
  rw [hnames] at hk; cases hk
  have hbb : b' = b := by
    have e0 := hb.place h
    rw [b2, b1] at e0
    have e2 : (x.blocks.map fun b => (x.sensors.getD b.1 "", b.2.1, b.2.2))[b]? = some (s.name, i + 1, c + 1) := by
      rw [List.getElem?_map, e0]
      have e1 := hi.sens_lookup (mem_sides.2 ⟨d, List.mem_of_getElem? hb.1, hb.2.1⟩)
      simp only [Option.map_some, List.getD, e1, Option.getD_some]
    exact (List.getElem?_inj (List.getElem?_eq_some_iff.1 hkb).1 (hi.name_inj hc)).1 (by rw [hkb, e2])
  subst hbb
  exact ⟨ub, hub, hcase⟩

/-- Two blocks have the same systematic effect when they are of the same column of the same sensor. -/
theorem blockOf_sys (hc : ConsistentFiles ds) (h : openMatchUp env ds = .ok mu) (hb : mu.BlockOf ds b i d s c) (hb' : mu.BlockOf ds b' i' d' s' c') {u u' : UncBlock α}
    (hu : mu.unc[b]? = some u) (hu' : mu.unc[b']? = some u') (ht : u.unc.typeID = 2 ∨ u.unc.typeID = 4) (ht' : u'.unc.typeID = 2 ∨ u'.unc.typeID = 4) :
    u.uS_i = u'.uS_i ↔ s.name = s'.name ∧ c = c' := by
  obtain ⟨_, c2, c3, _⟩ := C08_systematic_numbering env ds hc mu h
  obtain ⟨a, ha⟩ := Option.ne_none_iff_exists'.1 ((c2 b u hu).2 ht)
  obtain ⟨a', ha'⟩ := Option.ne_none_iff_exists'.1 ((c2 b' u' hu').2 ht')
  rw [ha, ha', Option.some.injEq, c3 b b' u u' a a' hu hu' ha ha']
  obtain ⟨q1, _, q3⟩ := blocks_get (hb.place h)
  obtain ⟨q1', _, q3'⟩ := blocks_get (hb'.place h)
  rw [q1, q1', q3, q3', Option.some.injEq, Option.some.injEq, Nat.add_right_cancel_iff]
  constructor
  · rintro ⟨e1, e2⟩
    refine ⟨?_, e2⟩
    obtain ⟨_, _, _, n, h1, h2⟩ := hb
    obtain ⟨_, _, _, n', h1', h2'⟩ := hb'
    have k1 := (blocks_get h1).1
    have k1' := (blocks_get h1').1
    rw [q1] at k1
    rw [q1'] at k1'
    cases k1; cases k1'
    rw [e1, h2'] at h2
    exact (Option.some.inj h2).symm
  · rintro ⟨e1, e2⟩
    exact ⟨by rw [e1], e2⟩

theorem column_getD {M : Nat} {X : Nat → Nat → α} {c r : Nat} (hr : r < M) : (column M X c).getD r 0 = X r c := by
  simp [column, List.getD, hr]

/-- **The covariance declared for two blocks of an opened match-up is that of the files.** -/
theorem declaredCov_files (he : EnumOk env.enumNat) (hc : ConsistentFiles ds) (h : openMatchUp env ds = .ok mu) (hb : mu.BlockOf ds b i d s c) (hb' : mu.BlockOf ds b' i' d' s' c')
    {r r' : Nat} (hr : r < d.M) (hr' : r' < d'.M) : mu.declaredCov b r b' r' = fileCov i d s c r i' d' s' c' r' := by
  obtain ⟨u, hu, hcase⟩ := hb.unc he hc h
  obtain ⟨u', hu', hcase'⟩ := hb'.unc he hc h
  -- one block
  have key : ∀ {b i c : Nat} {d : Dataset α} {s : Side α} {u : UncBlock α}, ((s.utype c = 1 ∧ u.unc = .independent (column d.M s.Ur c)) ∨
       (s.utype c = 2 ∧ u.unc = .systematic (column d.M s.Ur c) (column d.M s.Us c)) ∨
       ∃ (wi ui : Nat) (W : CSR α) (U : List α), d.hasUse = true ∧ mu.w_matrices[wi]? = some (some W) ∧ openW d (s.wUse c) = .ok W ∧
         mu.u_matrices[ui]? = some (some U) ∧ openU d (s.uUse c) = .ok U ∧
         ((s.utype c = 3 ∧ u.unc = .structured wi ui) ∨
          (s.utype c = 4 ∧ 1 < d.M ∧ u.unc = .structuredSystematic wi ui (s.Us 1 c)))) →
      (∀ r r', r < d.M → u.randomCov mu r r' = d.randomCov s c r r') ∧ (∀ r, r < d.M → u.sysUnc mu r = d.sysUnc s c r) ∧
        ((u.unc.typeID = 2 ∨ u.unc.typeID = 4) ∨ ((∀ r, u.sysUnc mu r = 0) ∧ ∀ r, d.sysUnc s c r = 0)) := by
    intro _ _ c d s u hcase
    rcases hcase with ⟨ht, hun⟩ | ⟨ht, hun⟩ | ⟨wi, ui, W, U, _, hw, hW, hu', hU, ⟨ht, hun⟩ | ⟨ht, _, hun⟩⟩
    · refine ⟨fun r r' hr => ?_, fun r hr => ?_, .inr ⟨fun r => ?_, fun r => ?_⟩⟩ <;>
        simp [UncBlock.randomCov, Dataset.randomCov, UncBlock.sysUnc, Dataset.sysUnc, hun, ht]
      rw [← List.getD_eq_getElem?_getD, column_getD hr]
    · refine ⟨fun r r' hr => ?_, fun r hr => ?_, .inl (.inl (by rw [hun]; rfl))⟩ <;>
        simp [UncBlock.randomCov, Dataset.randomCov, UncBlock.sysUnc, Dataset.sysUnc, hun, ht]
      · rw [← List.getD_eq_getElem?_getD, column_getD hr]
      · rw [← List.getD_eq_getElem?_getD, column_getD hr]
    · refine ⟨fun r r' hr => ?_, fun r hr => ?_, .inr ⟨fun r => ?_, fun r => ?_⟩⟩ <;>
        simp [UncBlock.randomCov, Dataset.randomCov, UncBlock.sysUnc, Dataset.sysUnc, hun, ht, hw, hu', hW, hU]
    · refine ⟨fun r r' hr => ?_, fun r hr => ?_, .inl (.inr (by rw [hun]; rfl))⟩ <;>
        simp [UncBlock.randomCov, Dataset.randomCov, UncBlock.sysUnc, Dataset.sysUnc, hun, ht, hw, hu', hW, hU]
  obtain ⟨k1, k2, k3⟩ := key (b := b) (i := i) hcase
  obtain ⟨k1', k2', k3'⟩ := key (b := b') (i := i') hcase'
  unfold MatchUp.declaredCov fileCov
  simp only [hu, hu']
  congr 1
  · have hiff : b = b' ↔ i = i' ∧ s.name = s'.name ∧ c = c' := by
      constructor
      · rintro rfl
        obtain ⟨rfl, rfl, rfl, rfl⟩ := hb.unique hc hb'
        exact ⟨rfl, rfl, rfl⟩
      · rintro ⟨rfl, hn, rfl⟩
        exact hb.inj hc h hb' hn
    by_cases hbb : b = b'
    · rw [if_pos hbb, if_pos (hiff.1 hbb), k1 r r' hr]
    · rw [if_neg hbb, if_neg fun hh => hbb (hiff.2 hh)]
  · rw [k2 r hr, k2' r' hr']
    rcases k3 with k3 | ⟨_, k3⟩
    · rcases k3' with k3' | ⟨_, k3'⟩
      · have := blockOf_sys hc h hb hb' hu hu' k3 k3'
        by_cases hs : u.uS_i = u'.uS_i
        · rw [if_pos hs, if_pos (this.1 hs)]
        · rw [if_neg hs, if_neg fun hh => hs (this.2 hh)]
      · simp [k3']
    · simp [k3]
end
end Verif
