import Verif.Lemmas.ReaderUnc
import Verif.Props.Reader
/-
Properties C08 and C10: uncertainties of the opened match-up.
-/
set_option autoImplicit false
namespace Verif
variable {α δ : Type} [Zero α] [DecidableEq α]

/-- Shape of the uncertainty list of an opened match-up. -/
theorem openUnc_facts {enum : List Nat → List Nat} {ds : List (Dataset α)} {x : Idx} {mx : Nat} (hf : IdxFacts ds x mx)
    (hc : ConsistentFiles ds) {unc : List (UncBlock α)} {ws : List (Option (CSR α))} {us : List (Option (List α))}
    (h : openUnc enum ds x = .ok (unc, ws, us)) :
    ∃ st r, (uncJobs ds x).foldlM (uncStep (matrixIdxs enum Side.wUse ds) (matrixIdxs enum Side.uUse ds) x.blocks)
        { unc := List.replicate x.N_var.length none
          ws := List.replicate (matrixIdxs enum Side.wUse ds).length none
          us := List.replicate (matrixIdxs enum Side.uUse ds).length none } = .ok st ∧
      ((x.n_sensor.zip x.n_cov).zip st.unc).foldlM sysStep ([], []) = .ok r ∧ r.2 = unc ∧ st.ws = ws ∧ st.us = us ∧
      st.unc.length = x.blocks.length := by
  unfold openUnc numberSystematic at h
  simp only [bind_ok, pure_ok, Prod.mk.injEq] at h
  obtain ⟨st, hst, u, ⟨r, hr, hru⟩, rfl, rfl, rfl⟩ := h
  refine ⟨st, r, hst, hr, hru, rfl, rfl, ?_⟩
  have := uncFold (ds := ds) (hf.nodup hc) (uncJobs ds x) (by
      intro j hj
      obtain ⟨i, d, s, c, hd, hs, hlt, rfl⟩ := (mem_uncJobs hf).1 hj
      exact ⟨hd, (hf.mem_blocks hc).2 ⟨by omega, by omega, d, s, by simpa using hd, hs, rfl, Nat.succ_le_of_lt hlt⟩⟩) _ st
    ⟨by simp, by
      intro k i w m _ hs
      simp [List.getElem?_replicate] at hs⟩
    ⟨by simp, by
      intro k i w m _ hs
      simp [List.getElem?_replicate] at hs⟩ (by simp [hf.N_var_length]) hst
  exact this.2.2.1

/-! ### C08 -/

/-- **C08.** In an opened match-up, a block has a systematic-effect number iff its uncertainty type has a systematic component; two
numbered blocks have the same number iff they belong to the same sensor and the same covariate; and the numbers in use are exactly
`1..n` for some `n`. -/
theorem C08_systematic_numbering (env : ReadEnv α δ) (ds : List (Dataset α)) (hc : ConsistentFiles ds)
    (mu : MatchUp α δ) (h : openMatchUp env ds = .ok mu) :
    mu.unc.length = mu.idx.n_sensor.length ∧
    (∀ (i : Nat) (u : UncBlock α), mu.unc[i]? = some u → (u.uS_i ≠ none ↔ u.unc.typeID = 2 ∨ u.unc.typeID = 4)) ∧
    (∀ (i j : Nat) (u v : UncBlock α) (a b : Nat), mu.unc[i]? = some u → mu.unc[j]? = some v →
      u.uS_i = some a → v.uS_i = some b →
      (a = b ↔ mu.idx.n_sensor[i]? = mu.idx.n_sensor[j]? ∧ mu.idx.n_cov[i]? = mu.idx.n_cov[j]?)) ∧
    ∃ n, ∀ k, (∃ u ∈ mu.unc, u.uS_i = some k) ↔ 1 ≤ k ∧ k ≤ n := by
  obtain ⟨x, mx, hx, hf⟩ := getIdx_facts (openMatchUp_nonempty h)
  obtain ⟨x', hx', _, _, _, _, _, _, _, _, hu, _, _, hidx, _⟩ := openMatchUp_inv h
  rw [hx] at hx'; cases hx'
  obtain ⟨st, r, _, hr, hru, _, _, hlen⟩ := openUnc_facts hf hc hu
  obtain ⟨hnd, _, ⟨ext, hext, hel, hget⟩, hex⟩ := sysFold _ _ _ hr (by simp)
  simp only [List.nil_append] at hext
  have hue : mu.unc = ext := by rw [← hru, hext]
  have hns : x.n_sensor.length = x.blocks.length := by rw [hf.n_sensor, hf.blocks]; simp
  have hnc : x.n_cov.length = x.blocks.length := by rw [hf.n_cov, hf.blocks]; simp
  have hzl : ((x.n_sensor.zip x.n_cov).zip st.unc).length = x.blocks.length := by
    simp only [List.length_zip, hns, hnc, hlen]; omega
  -- per block description
  have hblk : ∀ (i : Nat) (u : UncBlock α), mu.unc[i]? = some u → ∃ s c, x.n_sensor[i]? = some s ∧ x.n_cov[i]? = some c ∧
      u.uS_i = (if u.unc.isSys then some (r.1.idxOf (s, c) + 1) else none) ∧ (u.unc.isSys → (s, c) ∈ r.1) := by
    intro i u hi
    rw [hue] at hi
    have hil : i < ext.length := (List.getElem?_eq_some_iff.1 hi).1
    obtain ⟨e, he⟩ : ∃ e, ((x.n_sensor.zip x.n_cov).zip st.unc)[i]? = some e :=
      ⟨_, List.getElem?_eq_getElem (by omega)⟩
    obtain ⟨u', _, hu', hm⟩ := hget i e he
    rw [hi] at hu'
    cases hu'
    obtain ⟨⟨s, c⟩, o⟩ := e
    rw [List.getElem?_zip_eq_some] at he
    have he1 := he.1
    rw [List.getElem?_zip_eq_some] at he1
    exact ⟨s, c, he1.1, he1.2, rfl, hm⟩
  rw [hidx]
  refine ⟨by rw [hue, hel, hzl, ← hns], ?_, ?_, r.1.length, ?_⟩
  · intro i u hi
    obtain ⟨s, c, _, _, h1, _⟩ := hblk i u hi
    rw [h1]
    by_cases hs : u.unc.isSys = true
    · rw [if_pos hs]; simpa [Unc.isSys] using hs
    · rw [if_neg hs]; simpa [Unc.isSys] using hs
  · intro i j u v a b hi hj ha hb
    obtain ⟨s, c, e1, e2, e3, e4⟩ := hblk i u hi
    obtain ⟨s', c', f1, f2, f3, f4⟩ := hblk j v hj
    have hus : u.unc.isSys = true := by
      by_contra hn; rw [if_neg hn, ha] at e3; cases e3
    have hvs : v.unc.isSys = true := by
      by_contra hn; rw [if_neg hn, hb] at f3; cases f3
    rw [if_pos hus, ha] at e3
    rw [if_pos hvs, hb] at f3
    cases e3; cases f3
    simp only [e1, e2, f1, f2, Option.some.injEq]
    constructor
    · intro hab
      have := (List.idxOf_inj (e4 hus)).1 (Nat.add_right_cancel hab)
      simpa using this
    · rintro ⟨rfl, rfl⟩; rfl
  · intro k
    constructor
    · rintro ⟨u, hu', hk⟩
      obtain ⟨i, hi⟩ := List.mem_iff_getElem?.1 hu'
      obtain ⟨s, c, e1, e2, e3, e4⟩ := hblk i u hi
      have hus : u.unc.isSys = true := by
        by_contra hn; rw [if_neg hn, hk] at e3; cases e3
      rw [if_pos hus, hk] at e3
      cases e3
      have := List.idxOf_lt_length_of_mem (e4 hus)
      omega
    · rintro ⟨h1, h2⟩
      obtain ⟨key, hkey⟩ : ∃ key, r.1[k-1]? = some key := ⟨_, List.getElem?_eq_getElem (by omega)⟩
      rcases hex key (List.mem_of_getElem? hkey) with hh | ⟨e, he, u, hu1, hu2, hu3⟩
      · cases hh
      · obtain ⟨i, hi⟩ := List.mem_iff_getElem?.1 he
        obtain ⟨u', hu', hg, _⟩ := hget i e hi
        rw [hu1] at hu'
        cases hu'
        refine ⟨_, by rw [hue]; exact List.mem_of_getElem? hg, ?_⟩
        simp only [hu2, if_true, hu3]
        obtain ⟨hlt, hke⟩ := List.getElem?_eq_some_iff.1 hkey
        have : r.1.idxOf key = k - 1 := by
          rw [← hke]; exact hnd.idxOf_getElem _ _
        rw [this]; congr 1; omega

example : ∃ mu, openMatchUp Fixture.env Fixture.files = .ok mu ∧
    mu.unc.map (·.uS_i) = [none, none, some 1, some 2, none, some 3, some 4] := ⟨_, rfl, by decide⟩

/-! ### C10 -/

/-- **C10.** For every file, side and column of an opened match-up, the column's block carries an uncertainty of the type declared
in the file, with the declared data: the `Ur` column; the `Ur` and `Us` columns; the W matrix and u vector that the file's use variables
name; or those with the systematic uncertainty of the second match-up (row 1 of `Us`).  Any other declared type makes opening
fail. -/
theorem C10_declared_uncertainty (env : ReadEnv α δ) (he : EnumOk env.enumNat) (ds : List (Dataset α))
    (hc : ConsistentFiles ds) (mu : MatchUp α δ) (h : openMatchUp env ds = .ok mu)
    (i : Nat) (d : Dataset α) (hd : ds[i]? = some d) (s : Side α) (hs : s = d.s1 ∨ s = d.s2) (c : Nat) (hlt : c < s.m) :
    ∃ (keys : List (String × Nat × Nat)) (b : Nat) (ub : UncBlock α), mu.idx.nameBlocks = .ok keys ∧ keys[b]? = some (s.name, i + 1, c + 1) ∧ mu.unc[b]? = some ub ∧
      ((s.utype c = 1 ∧ ub.unc = .independent (column d.M s.Ur c)) ∨
       (s.utype c = 2 ∧ ub.unc = .systematic (column d.M s.Ur c) (column d.M s.Us c)) ∨
       ∃ (wi ui : Nat) (W : CSR α) (U : List α), d.hasUse = true ∧ mu.w_matrices[wi]? = some (some W) ∧ openW d (s.wUse c) = .ok W ∧
         mu.u_matrices[ui]? = some (some U) ∧ openU d (s.uUse c) = .ok U ∧
         ((s.utype c = 3 ∧ ub.unc = .structured wi ui) ∨
          (s.utype c = 4 ∧ 1 < d.M ∧ ub.unc = .structuredSystematic wi ui (s.Us 1 c)))) := by
  obtain ⟨x, mx, hx, hf⟩ := getIdx_facts (openMatchUp_nonempty h)
  obtain ⟨x', hx', _, _, _, _, _, _, _, _, hu, _, _, hidx, _⟩ := openMatchUp_inv h
  rw [hx] at hx'; cases hx'
  obtain ⟨st, r, hst, hr, hru, hws, hus, hlen⟩ := openUnc_facts hf hc hu
  obtain ⟨_, _, ⟨ext, hext, hel, hget⟩, _⟩ := sysFold _ _ _ hr (by simp)
  simp only [List.nil_append] at hext
  have hue : mu.unc = ext := by rw [← hru, hext]
  have hns : x.n_sensor.length = x.blocks.length := by rw [hf.n_sensor, hf.blocks]; simp
  have hnc : x.n_cov.length = x.blocks.length := by rw [hf.n_cov, hf.blocks]; simp
  have hmemb : (x.sensors.idxOf s.name, i + 1, c + 1) ∈ x.blocks :=
    (hf.mem_blocks hc).2 ⟨by omega, by omega, d, s, by simpa using hd, hs, rfl, by omega⟩
  obtain ⟨b, hb⟩ := List.mem_iff_getElem?.1 hmemb
  have hbl : b < x.blocks.length := (List.getElem?_eq_some_iff.1 hb).1
  have hfold := uncFold (ds := ds) (hf.nodup hc) (uncJobs ds x) (by
      intro j hj
      obtain ⟨i, d, s, c, hd, hs, hlt, rfl⟩ := (mem_uncJobs hf).1 hj
      exact ⟨hd, (hf.mem_blocks hc).2 ⟨by omega, by omega, d, s, by simpa using hd, hs, rfl, Nat.succ_le_of_lt hlt⟩⟩) _ st
    ⟨by simp, by
      intro k i w m _ hs
      simp [List.getElem?_replicate] at hs⟩
    ⟨by simp, by
      intro k i w m _ hs
      simp [List.getElem?_replicate] at hs⟩ (by simp [hf.N_var_length]) hst
  obtain ⟨g1, g2, _, _, _, _, g7⟩ := hfold
  obtain ⟨k1, k2⟩ := g7 (uncJobs_nodup hf hc) (d, i, s, x.sensors.idxOf s.name, c)
    ((mem_uncJobs hf).2 ⟨i, d, s, c, hd, hs, hlt, rfl⟩) b hb
  -- the block's entry in the numbered list
  obtain ⟨e, hz⟩ : ∃ e, ((x.n_sensor.zip x.n_cov).zip st.unc)[b]? = some e :=
    ⟨_, List.getElem?_eq_getElem (by simp only [List.length_zip, hns, hnc, hlen]; omega)⟩
  obtain ⟨u, hu1, hu2, _⟩ := hget b e hz
  have hstu : st.unc[b]? = some (some u) := by
    rw [List.getElem?_zip_eq_some] at hz
    rw [hz.2, hu1]
  have hkeys : (x.blocks.map fun b => (x.sensors.getD b.1 "", b.2.1, b.2.2))[b]? = some (s.name, i + 1, c + 1) := by
    rw [List.getElem?_map, hb]
    have e1 := hf.sens_lookup (mem_sides.2 ⟨d, List.mem_of_getElem? hd, hs⟩)
    simp only [Option.map_some, List.getD, e1, Option.getD_some]
  refine ⟨_, b, _, by rw [hidx]; exact hf.names hc, hkeys, by rw [hue]; exact hu2, ?_⟩
  simp only at k1 k2 ⊢
  by_cases hty : s.utype c ∈ [1, 2, 3, 4]
  · obtain ⟨wi, ui, m1, m2, m3⟩ := k2 hty
    rw [hstu] at m1
    have m1 := Option.some.inj m1
    simp only [List.mem_cons, List.not_mem_nil, or_false] at hty
    have huse : s.utype c ∈ [3, 4] → ∃ (W : CSR α) (U : List α), d.hasUse = true ∧ mu.w_matrices[wi]? = some (some W) ∧
        openW d (s.wUse c) = .ok W ∧ mu.u_matrices[ui]? = some (some U) ∧ openU d (s.uUse c) = .ok U := by
      intro h34
      obtain ⟨n1, ⟨W, n2⟩, n3, ⟨U, n4⟩⟩ := m3 h34
      obtain ⟨d', hd', hW⟩ := g1.2 wi i _ W n1 n2
      obtain ⟨d'', hd'', hU⟩ := g2.2 ui i _ U n3 n4
      rw [hd] at hd' hd''
      cases hd'; cases hd''
      have hhas : d.hasUse = true := by
        have := List.mem_of_getElem? n1
        unfold matrixIdxs at this
        simp only [List.mem_flatMap, List.mem_map, Prod.mk.injEq, Prod.exists, List.mem_zipIdx_iff_getElem?] at this
        obtain ⟨d', k, hk, w, hw, hki, _⟩ := this
        have hki : k = i := by omega
        subst hki
        rw [hd] at hk
        cases hk
        have hw' := ((he _).2 w).1 hw
        by_contra hno
        simp [Dataset.uses, hno] at hw'
      refine ⟨W, U, hhas, by rw [← hws]; exact n2, ?_, by rw [← hus]; exact n4, ?_⟩
      · simpa [wNum, hhas] using hW
      · simpa [uNum, hhas] using hU
    rcases hty with h1 | h1 | h1 | h1
    · left; exact ⟨h1, by simpa [expectedUnc, h1] using m1⟩
    · right; left; exact ⟨h1, by simpa [expectedUnc, h1] using m1⟩
    · obtain ⟨W, U, q1, q2, q3, q4, q5⟩ := huse (by simp [h1])
      exact .inr (.inr ⟨wi, ui, W, U, q1, q2, q3, q4, q5, .inl ⟨h1, by simpa [expectedUnc, h1] using m1⟩⟩)
    · obtain ⟨W, U, q1, q2, q3, q4, q5⟩ := huse (by simp [h1])
      exact .inr (.inr ⟨wi, ui, W, U, q1, q2, q3, q4, q5,
        .inr ⟨h1, m2 h1, by simpa [expectedUnc, h1] using m1⟩⟩)
  · have := k1 hty
    rw [hstu] at this
    simp only [List.getElem?_replicate, hf.N_var_length, hbl, if_true] at this
    cases this

/-- A file with W matrices: two match-ups, the first covariate of sensor B averaged over columns of a 2 by 3 matrix (type 4),
the second independent. -/
def Fixture.wfile (M : Nat) : Dataset Int :=
  { Fixture.file M (Fixture.side "A" 1 0 1)
      { Fixture.side "B" 2 50 1 with utype := fun c => if c = 0 then 4 else 1, wUse := fun c => if c = 0 then 1 else 0,
                                     uUse := fun c => if c = 0 then 1 else 0 } [] with
    hasUse := true
    wNnz := [4], wVal := [1, 2, 3, 4], wCol := [0, 1, 1, 2], wRow := [[0, 2, 4]], uCount := [3], uVal := [5, 6, 7] }

example : ∃ mu, openMatchUp Fixture.env [Fixture.wfile 2] = .ok mu ∧
    mu.unc.map (·.unc.typeID) = [1, 4, 1] ∧ mu.u_matrices = [some [5, 6, 7]] := ⟨_, rfl, by decide, by decide⟩

/-- A file with a single match-up and a type 4 column cannot be opened: the systematic uncertainty is read from row 1. -/
theorem C10_type4_single_matchup_fails : openMatchUp Fixture.env [Fixture.wfile 1] = .error .indexError := by rfl

end Verif
