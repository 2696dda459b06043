import Verif.Lemmas.GNReady
import Verif.Props.Measurand
/-
Opening solvable files gives a solver-ready match-up.
-/
set_option autoImplicit false
namespace Verif
variable {α δ : Type} [Field α] [DecidableEq α]

theorem covNumbers_opened {ds : List (Dataset α)} {x : Idx} {mx : Nat} (h : IdxFacts ds x mx) (hc : ConsistentFiles ds)
    {i : Nat} {d : Dataset α} {s : Side α} (hd : ds[i]? = some d) (hs : s = d.s1 ∨ s = d.s2) :
    x.covNumbers (x.sensors.idxOf s.name) (i + 1) = (List.range s.m).map (· + 1) := by
  have hzip : x.n_sensor.zip x.n_mu = x.blocks.map fun b => (b.1, b.2.1) := by
    rw [h.n_sensor, h.n_mu, ← h.blocks]
    generalize x.blocks = l
    induction l with
    | nil => rfl
    | cons a l ih => simp [ih]
  have h1 : ∀ n : Nat, (covBlocks x n (i + 1)).map (fun b => x.blocks[b]?) =
      (x.blocks.filter fun b => b.1 == n && b.2.1 == i + 1).map some := by
    intro n
    unfold covBlocks
    rw [hzip, List.zipIdx_map, List.filter_map, List.map_map, List.map_map]
    rw [← filter_zipIdx_fst x.blocks _ 0, List.map_map]
    have : ∀ p q : Nat × Nat × Nat → Bool, p = q → ∀ l : List ((Nat × Nat × Nat) × Nat), (l.filter fun b => p b.1) = l.filter fun b => q b.1 := by
      rintro p q rfl l; rfl
    have hpq : (fun b : Nat × Nat × Nat => (b.1, b.2.1) == (n, i + 1)) = fun b => b.1 == n && b.2.1 == i + 1 := by
      funext b; rfl
    rw [← this _ _ hpq]
    apply List.map_congr_left
    intro b hb
    have := (List.mem_filter.1 hb).1
    rw [List.mem_zipIdx_iff_getElem?] at this
    simp [this]
  have h2 := h.cov_blocks hc hd hs
  rw [h1] at h2
  unfold Idx.covNumbers
  have h3 := congrArg (List.map fun o : Option (Nat × Nat × Nat) => (o.getD (0, 0, 0)).2.2) h2
  simp only [List.map_map, Function.comp_def, Option.getD_some] at h3
  exact h3

theorem opened_solverReady {env : ReadEnv α δ} (he : EnumOk env.enumNat) {ds : List (Dataset α)} {sd : SensorData α (SensorModel α δ) (AdjModel α)} {m : Nat}
    (hf : SolvableFiles ds sd m) {ms : Evaluable α δ} (h : openMatchUpWith env defaultAdjustment ds sd = .ok ms) :
    ∃ labels clabels, ms.SolverReady labels clabels m := by
  obtain ⟨mu, e, hmu, hex, rfl⟩ := openMatchUpWith_inv h
  have hc := hf.consistent
  obtain ⟨c1, c2, c3, c4, c5, c6, c7⟩ := C12_extraction defaultAdjustment sd hf.keys mu.idx.sensors e hex
  have hwf := opened_wellLaid env ds hc (fun d hd => .inl (hf.columns d hd _ (.inl rfl)).1) mu hmu
  obtain ⟨hor, hn1, hn2, _, _⟩ := opened_numbered env ds hc mu hmu
  obtain ⟨x, mx, hx, hi⟩ := getIdx_facts (openMatchUp_nonempty hmu)
  obtain ⟨x', hx', _, _, _, _, _, _, _, _, _, _, _, hidx, _⟩ := openMatchUp_inv hmu
  rw [hx] at hx'; cases hx'
  have b1 : mu.idx.sensors = x.sensors := by rw [hidx]
  have b2 : mu.idx.sensor_ms = x.sensor_ms := by rw [hidx]
  have b3 : mu.idx.blocks = x.blocks := by rw [hidx]; rfl
  have b4 : mu.idx.Im = x.Im := by rw [hidx]
  have b5 : mu.idx.N_var = x.N_var := by rw [hidx]
  have b6 : mu.idx.n_sensor = x.n_sensor ∧ mu.idx.n_mu = x.n_mu ∧ mu.idx.n_cov = x.n_cov := by rw [hidx]; exact ⟨rfl, rfl, rfl⟩
  have b7 : mu.idx.Nm = ds.map (·.M) := by rw [hidx]; exact hi.Nm
  have b8 : ∀ s n, mu.idx.covNumbers s n = x.covNumbers s n := by intro s n; unfold Idx.covNumbers; rw [b3]
  -- uncertainty of a block of the table
  have hblk : ∀ (b : Nat) (u : UncBlock α) (s n c : Nat), x.blocks[b]? = some (s, n, c) → mu.unc[b]? = some u → ∃ (d : Dataset α) (sd' : Side α),
      d ∈ ds ∧ ds[n - 1]? = some d ∧ d.HasSide sd' ∧ s = x.sensors.idxOf sd'.name ∧ 1 ≤ c ∧ c ≤ sd'.m ∧
      u.Fits mu d.M ∧ (sd'.utype (c - 1) = 1 ∨ sd'.utype (c - 1) = 2 → u.unc.typeID = 1 ∨ u.unc.typeID = 2) := by
    intro b u s n c hb hu
    obtain ⟨hn1', hc1, d, sd', hd, hsd, hs, hcm⟩ := (hi.mem_blocks hc).1 (List.mem_of_getElem? hb)
    have hdm := List.mem_of_getElem? hd
    obtain ⟨keys, b', ub, hk, hkb, hub, hcase⟩ := C10_declared_uncertainty env he ds hc mu hmu (n - 1) d hd sd' hsd (c - 1) (by omega)
    have hnames : mu.idx.nameBlocks = .ok (x.blocks.map fun b => (x.sensors.getD b.1 "", b.2.1, b.2.2)) := by
      rw [hidx]; exact hi.names hc
    rw [hnames] at hk; cases hk
    have hbb : b' = b := by
      rw [List.getElem?_map] at hkb
      cases hxb : x.blocks[b']? with
      | none => rw [hxb] at hkb; cases hkb
      | some t =>
        obtain ⟨s', n', c'⟩ := t
        rw [hxb] at hkb
        simp only [Option.map_some, Option.some.injEq, Prod.mk.injEq] at hkb
        obtain ⟨k1, k2, k3⟩ := hkb
        obtain ⟨hn1'', hc1', d', sd'', hd', hsd', hs', hcm'⟩ := (hi.mem_blocks hc).1 (List.mem_of_getElem? hxb)
        have hl := hi.sens_lookup (mem_sides.2 ⟨d', List.mem_of_getElem? hd', hsd'⟩)
        have : sd''.name = sd'.name := by
          rw [hs'] at k1
          simpa [List.getD, hl] using k1
        have heq : (s', n', c') = (s, n, c) := by
          have e1 : s' = s := by rw [hs', hs, this]
          have e2 : n' = n := by omega
          have e3 : c' = c := by omega
          rw [e1, e2, e3]
        rw [heq] at hxb
        exact (List.getElem?_inj (List.getElem?_eq_some_iff.1 hxb).1 (hi.nodup hc)).1 (by rw [hxb, hb])
    subst hbb
    rw [hu] at hub; cases hub
    refine ⟨d, sd', hdm, hd, hsd, hs, hc1, hcm, ?_, ?_⟩
    · unfold UncBlock.Fits
      rcases hcase with ⟨_, hun⟩ | ⟨_, hun⟩ | ⟨wi, ui, W, U, _, hW, hoW, hU, hoU, hcase⟩
      · simp [hun, column]
      · simp only [hun]
        have := (hn1 u (List.mem_of_getElem? hu)).2 (by simp [hun, Unc.typeID])
        obtain ⟨q, hq⟩ := Option.ne_none_iff_exists'.1 this
        exact ⟨by simp [column], by simp [column], q, hq, (hn2 u (List.mem_of_getElem? hu) q hq).1⟩
      · obtain ⟨ut, hfit⟩ : ∃ ut, (ut = 3 ∨ ut = 4) ∧ sd'.utype (c - 1) = ut := by
          rcases hcase with ⟨h, _⟩ | ⟨h, _⟩
          · exact ⟨3, .inl rfl, h⟩
          · exact ⟨4, .inr rfl, h⟩
        obtain ⟨f1, f2, f3⟩ := hf.matrices d hdm sd' hsd (c - 1) W U (by omega) (by rcases hfit with ⟨rfl | rfl, h⟩ <;> simp [h]) hoW hoU
        rcases hcase with ⟨_, hun⟩ | ⟨_, _, hun⟩
        · simp only [hun]
          exact ⟨W, U, hW, hU, f1, f2, f3⟩
        · simp only [hun]
          have := (hn1 u (List.mem_of_getElem? hu)).2 (by simp [hun, Unc.typeID])
          obtain ⟨q, hq⟩ := Option.ne_none_iff_exists'.1 this
          exact ⟨⟨W, U, hW, hU, f1, f2, f3⟩, q, hq, (hn2 u (List.mem_of_getElem? hu) q hq).1⟩
    · intro ht
      rcases hcase with ⟨_, hun⟩ | ⟨_, hun⟩ | ⟨wi, ui, W, U, _, hW, hoW, hU, hoU, hcase⟩
      · simp [hun, Unc.typeID]
      · simp [hun, Unc.typeID]
      · rcases hcase with ⟨h, _⟩ | ⟨h, _⟩ <;> omega
  -- the largest covariate number
  have hmx : mx = m := by
    apply Nat.le_antisymm
    · obtain ⟨i, hi'⟩ := List.mem_iff_getElem?.1 hi.mx_mem
      have hlt : i < x.sensors.length := by rw [hi.ms_len]; exact (List.getElem?_eq_some_iff.1 hi').1
      obtain ⟨s, hs, _, hsm⟩ := hi.ms_first i _ (List.getElem?_eq_getElem hlt)
      rw [hi'] at hsm; cases hsm
      obtain ⟨d, hd, hsd⟩ := mem_sides.1 hs
      exact (hf.columns d hd s hsd).2
    · obtain ⟨d, hd, s, hsd, rfl⟩ := hf.largest
      have hs := mem_sides.2 ⟨d, hd, hsd⟩
      rw [← hi.ms_eq hc hs]
      exact hi.ms_le _
  have hlast : x.n_cov.getLast? = some m := by
    obtain ⟨d, hd, s, hsd, hsm⟩ := hf.largest
    obtain ⟨i, hdi⟩ := List.mem_iff_getElem?.1 hd
    have hm1 := (hf.columns d hd s hsd).1
    have hmem : (x.sensors.idxOf s.name, i + 1, m) ∈ x.blocks :=
      (hi.mem_blocks hc).2 ⟨by omega, by omega, d, s, by simpa using hdi, hsd, rfl, by omega⟩
    have hsorted : x.blocks.Pairwise fun a b => a.2.2 ≤ b.2.2 := by rw [hi.blocks]; exact blockList_sorted _ _ _
    have hncov : x.n_cov = x.blocks.map (·.2.2) := by rw [hi.n_cov, hi.blocks]
    have hne : x.blocks ≠ [] := by intro h0; rw [h0] at hmem; cases hmem
    rw [hncov, List.getLast?_map, List.getLast?_eq_some_getLast hne, Option.map_some]
    congr 1
    obtain ⟨⟨s', n', c'⟩, hL⟩ : ∃ t, t = x.blocks.getLast hne := ⟨_, rfl⟩
    rw [← hL]
    have hLm : (s', n', c') ∈ x.blocks := by rw [hL]; exact List.getLast_mem hne
    obtain ⟨_, _, d', s'', hd', hsd', _, hcm⟩ := (hi.mem_blocks hc).1 hLm
    have hle := (hf.columns d' (List.mem_of_getElem? hd') s'' hsd').2
    have hge : m ≤ c' := by
      obtain ⟨j, hj⟩ := List.mem_iff_getElem?.1 hmem
      obtain ⟨hjl, hje⟩ := List.getElem?_eq_some_iff.1 hj
      have hLe : x.blocks[x.blocks.length - 1]'(by omega) = (s', n', c') := by rw [hL, List.getLast_eq_getElem]
      rcases Nat.lt_or_ge j (x.blocks.length - 1) with hlt | hge
      · have := List.pairwise_iff_getElem.1 hsorted j (x.blocks.length - 1) hjl (by omega) hlt
        rw [hje, hLe] at this
        exact this
      · have hj' : j = x.blocks.length - 1 := by omega
        subst hj'
        rw [hje] at hLe
        simp only [Prod.mk.injEq] at hLe
        omega
    simp only
    omega
  have hside : ∀ (i : Nat) (d : Dataset α) (s : Side α), ds[i]? = some d → d.HasSide s →
      Evaluable.SideReady (⟨{ mu with idx := mu.idx.withSensorData e, original_idx := mu.idx.withSensorData e }, e.a, e.constant, e.sensor_model,
        e.adjustment_model⟩ : Evaluable α δ) e.a_sensor e.constant_sensor m (i + 1) (x.sensors.idxOf s.name) := by
    intro i d s hd hs
    have hdm := List.mem_of_getElem? hd
    have hsm : s ∈ ds.flatMap Dataset.sides := mem_sides.2 ⟨d, hdm, hs⟩
    have hlook := hi.sens_lookup hsm
    have hin : s.name ∈ mu.idx.sensors := by rw [b1]; exact List.mem_of_getElem? hlook
    obtain ⟨en, hen, hpar, hcon⟩ := c5 _ hin
    obtain ⟨en', hen', hmod⟩ := c7 _ _ (by rw [b1]; exact hlook)
    have heq : en' = en := by
      have := List.inj_on_of_nodup_map hf.keys hen' hen rfl
      simpa using this
    subst heq
    obtain ⟨hadj, hkind⟩ := hf.sensors d hdm s hs en' hen
    -- adjustment model
    have hB : ∃ B, e.adjustment_model[x.sensors.idxOf s.name]? = some B ∧ B.Sized := by
      unfold extractSensorData at hex
      obtain ⟨models, hm, hex⟩ := bind_ok.1 hex
      rw [pure_ok] at hex
      subst hex
      obtain ⟨r, hr, hri⟩ := (mapM_ok_get hm).2 _ _ (by rw [b1]; exact hlook)
      refine ⟨r.2, by rw [List.getElem?_map, hri]; rfl, ?_⟩
      unfold extractModel SensorData.get at hr
      have hfind : sd.find? (fun e => e.1 == s.name) = some (s.name, en') := by
        cases hfnd : sd.find? (fun e => e.1 == s.name) with
        | none =>
          rw [List.find?_eq_none] at hfnd
          exact absurd (by simp) (hfnd _ hen)
        | some p =>
          have h1 := List.mem_of_find?_eq_some hfnd
          have h2 := List.find?_some hfnd
          have h3 : p.1 = s.name := by simpa using h2
          have := List.inj_on_of_nodup_map hf.keys h1 hen h3
          rw [this]
      rw [hfind] at hr
      simp only [bind, Except.bind] at hr
      split at hr
      · split at hr
        · rename_i B hB
          cases hr
          exact hadj B hB
        · cases hr
      · cases hr
        intro R
        exact ⟨R, R.map fun _ => 1, rfl, rfl, by simp⟩
    obtain ⟨B, hB1, hB2⟩ := hB
    have hms : x.sensor_ms[x.sensors.idxOf s.name]? = some s.m := hi.ms_lookup hc hsm
    have hlab : labelled e.a_sensor e.a s.name = en'.parameter := by
      rw [← hpar]; exact pick_eq_selectBy _ _ _
    have hclab : labelled e.constant_sensor e.constant s.name = en'.constant := by
      rw [← hcon]; exact pick_eq_selectBy _ _ _
    have hcount : e.a_sensor.count s.name = en'.parameter.length := by
      rw [← labelled_length c1, hlab]
    have hq1 := (hf.columns d hdm s hs).1
    refine ⟨s.name, s.m, en'.model, B, by rw [← b1] at hlook ⊢; exact hlook, by rw [← b2] at hms; exact hms, hmod, hB1, hB2, hq1, ?_, ?_⟩
    · show mu.idx.covNumbers _ _ = _
      rw [b8]; exact covNumbers_opened hi hc hd hs
    · simp only [hclab, hcount]
      rcases hkind with ⟨k1, k2, k3⟩ | ⟨k1, k2⟩
      · refine .inl ⟨by rw [k2]; exact k1, k2, ?_⟩
        by_contra hnot
        have := List.count_eq_zero.2 hnot
        rw [hcount] at this
        exact k3 (List.length_eq_zero_iff.1 this)
      · refine .inr ⟨k1, ?_⟩
        intro b c u hb hu
        have hb' : x.blocks[b]? = some (x.sensors.idxOf s.name, i + 1, c) := by rw [← b3]; exact hb
        obtain ⟨d', s', hd1, hd2, hs2, hse, hc1, hcm, _, hty⟩ := hblk b u _ _ _ hb' hu
        simp only [Nat.add_sub_cancel] at hd2
        rw [hd] at hd2; cases hd2
        have hl2 := hi.sens_lookup (mem_sides.2 ⟨d, hdm, hs2⟩)
        rw [← hse, hlook] at hl2
        have hnm : s.name = s'.name := by simpa using hl2
        have hss : s' = s := by
          have hne := hc.1 d hdm
          rcases hs with rfl | rfl <;> rcases hs2 with rfl | rfl
          · rfl
          · exact absurd hnm hne
          · exact absurd hnm.symm hne
          · rfl
        subst hss
        exact hty (k2 _ (by omega))
  refine ⟨e.a_sensor, e.constant_sensor, ⟨⟨hwf.idx.1, hwf.idx.2, hwf.idx.3, hwf.idx.4, hwf.idx.5⟩, hwf.values, hwf.unc, hwf.ks, hwf.unck⟩, ?_, rfl, ?_, ?_,
    ⟨rfl, c1.symm⟩, rfl, ?_, ?_, ?_⟩
  · show mu.idx.n_sensor.length = mu.idx.n_mu.length ∧ mu.idx.n_cov.length = mu.idx.n_mu.length
    rw [b6.1, b6.2.1, b6.2.2, hi.n_sensor, hi.n_mu, hi.n_cov]
    simp
  · show mu.idx.Im.length = mu.idx.Nm.length
    rw [b4, b7, hi.Im_length, List.length_map]
  · intro b n u hu hn
    have hu' : mu.unc[b]? = some u := hu
    have hn' : x.N_var[b]? = some n := by rw [← b5]; exact hn
    have hlt : b < x.blocks.length := by
      have := (List.getElem?_eq_some_iff.1 hn').1
      rw [hi.N_var, List.length_map, hi.n_mu, List.length_map] at this
      rw [hi.blocks]; exact this
    obtain ⟨⟨s, k, c⟩, hxb⟩ : ∃ t, x.blocks[b] = t := ⟨_, rfl⟩
    have hb : x.blocks[b]? = some (s, k, c) := by rw [List.getElem?_eq_getElem hlt, hxb]
    obtain ⟨d, s', hd1, hd2, _, _, _, _, hfit, _⟩ := hblk b u s k c hb hu'
    have hk : x.n_mu[b]? = some k := (blocks_get hb).2.1
    rw [hi.N_var, List.getElem?_map, hk] at hn'
    have : d.M = n := by
      simp only [Option.map_some, Option.some.injEq, List.getD, List.getElem?_map, hd2, Option.getD_some] at hn'
      exact hn'
    rw [← this]
    exact hfit
  · show mu.idx.n_cov.getLast? = some m
    rw [b6.2.2]; exact hlast
  · intro pair hp
    have hp' : pair ∈ x.Im := by rw [← b4]; exact hp
    rw [hi.Im] at hp'
    obtain ⟨d, hd, rfl⟩ := List.mem_map.1 hp'
    have h1 := hi.sens_lookup (mem_sides.2 ⟨d, hd, .inl rfl⟩)
    have h2 := hi.sens_lookup (mem_sides.2 ⟨d, hd, .inr rfl⟩)
    have hne := hc.1 d hd
    constructor
    · intro h0
      simp only at h0
      rw [h0, h2] at h1
      exact hne (by simpa using h1.symm)
    · show mu.idx.sensors[_]? ≠ mu.idx.sensors[_]?
      rw [b1, h1, h2]
      simpa using hne
  · intro i pair hp
    have hp' : x.Im[i]? = some pair := by rw [← b4]; exact hp
    rw [hi.Im, List.getElem?_map] at hp'
    cases hd : ds[i]? with
    | none => rw [hd] at hp'; cases hp'
    | some d =>
      rw [hd] at hp'
      simp only [Option.map_some, Option.some.injEq] at hp'
      subst hp'
      exact ⟨hside i d d.s1 hd (.inl rfl), hside i d d.s2 hd (.inr rfl)⟩

end Verif
