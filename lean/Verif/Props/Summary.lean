import Verif.Model.Summary
import Verif.Props.ReaderUnc
/-
Property C15: the printed summary.
-/
set_option autoImplicit false
namespace Verif
variable {α δ : Type}

/-- What the reader of the summary expects to see of a series of `M` items: all of them when fewer than ten, otherwise the first three, an
ellipsis, and the last. -/
def shown {β : Type} (M : Nat) (f : Nat → β) : List (Option β) :=
  if M < 10 then (List.range M).map fun r => some (f r)
  else [some (f 0), some (f 1), some (f 2), none, some (f (M - 1))]

theorem printedRows_short {β : Type} {M : Nat} (hM : M < 10) {row : Int → Py β} {f : Nat → β}
    (h : ∀ r < M, row (r : Int) = .ok (f r)) : printedRows M row = .ok ((List.range M).map fun r => some (f r)) := by
  unfold printedRows rowSelection
  simp only [if_pos hM, Bool.false_eq_true, false_and, if_false]
  rw [mapM_ok_of (g := fun (ri : Int × Nat) => some (f ri.1.toNat))]
  · congr 1
    apply List.ext_getElem?
    intro k
    simp only [List.getElem?_map, List.getElem?_zipIdx]
    by_cases hk : k < M
    · simp [List.getElem?_range hk]
    · simp [List.getElem?_eq_none (l := List.range M) (i := k) (by simpa using hk)]
  · intro ri hri
    obtain ⟨i, hi⟩ := List.mem_iff_getElem?.1 hri
    simp only [List.getElem?_zipIdx, List.getElem?_map] at hi
    by_cases hk : i < M
    · simp only [List.getElem?_range hk, Option.map_some, Option.some.injEq] at hi
      subst hi
      simp only [h i hk, bind, Except.bind, pure, Except.pure, Int.toNat_natCast]
    · rw [List.getElem?_eq_none (by simpa using hk)] at hi
      simp at hi

theorem printedRows_long {β : Type} {M : Nat} (hM : ¬ M < 10) {row : Int → Py β} {a b c d : β}
    (h0 : row 0 = .ok a) (h1 : row 1 = .ok b) (h2 : row 2 = .ok c) (h3 : row (-1) = .ok d) :
    printedRows M row = .ok [some a, some b, some c, none, some d] := by
  unfold printedRows rowSelection
  simp only [if_neg hM]
  simp [List.zipIdx, List.mapM_cons, h0, h1, h2, h3, bind, Except.bind, pure, Except.pure]

theorem pyGetInt_nonneg {β : Type} (l : List β) (k : Nat) : pyGetInt l (k : Int) = pyGet l k := by
  simp [pyGetInt]

theorem pyGetInt_last {β : Type} (l : List β) (h : l ≠ []) : pyGetInt l (-1) = pyGet l (l.length - 1) := by
  have : 0 < l.length := List.length_pos_of_ne_nil h
  unfold pyGetInt
  rw [if_neg (by omega), if_pos (by omega)]
  congr 1
  omega

variable [Zero α] [DecidableEq α]

/-- **C15 is false of the code, 1:** for every list of files the printed number of series is one more than the number of files; the
printed totals are right. -/
theorem C15_header (env : ReadEnv α δ) (ds : List (Dataset α)) (hc : ConsistentFiles ds) (mu : MatchUp α δ)
    (h : openMatchUp env ds = .ok mu) (s : Summary α) (hs : summary mu = .ok s) :
    s.series = ds.length + 1 ∧ s.total = (ds.map (·.M)).sum ∧ s.totalValues = mu.values.length ∧
      s.sensors = mu.idx.sensors ∧ s.body.length = ds.length := by
  obtain ⟨x, mx, hx, hf⟩ := getIdx_facts (openMatchUp_nonempty h)
  obtain ⟨x', hx', hv, _, _, _, _, _, _, _, _, _, _, hidx, _⟩ := openMatchUp_inv h
  rw [hx] at hx'; cases hx'
  have h2 := C02_boundaries_partition env ds hc mu h
  unfold summary at hs
  obtain ⟨t, ht, hs⟩ := bind_ok.1 hs
  obtain ⟨tv, htv, hs⟩ := bind_ok.1 hs
  obtain ⟨b, hb, hs⟩ := bind_ok.1 hs
  rw [pure_ok] at hs
  subst hs
  have hcn : mu.idx.cNm = prefixSums (ds.map (·.M)) := by rw [hidx]; exact hf.cNm
  have hlast := h2.2.2.1
  rw [List.getLast?_eq_getElem?] at hlast
  rw [pyGet, hlast] at htv
  have ht' : t = (ds.map (·.M)).sum := by
    rw [hidx] at ht
    have := hf.cNm_last
    rw [this] at ht
    cases ht; rfl
  refine ⟨by simp [hcn], ht', by cases htv; rfl, rfl, ?_⟩
  have hb' : b.length = mu.idx.Im.zipIdx.length := by
    have : ∀ {β γ : Type} {f : β → Py γ} {l : List β} {r : List γ}, l.mapM f = .ok r → r.length = l.length := by
      intro β γ f l
      induction l with
      | nil => intro r h; simp [List.mapM_nil, pure, Except.pure] at h; subst h; rfl
      | cons b l ih =>
        intro r h
        rw [List.mapM_cons] at h
        obtain ⟨c, _, h⟩ := bind_ok.1 h
        obtain ⟨cs, hcs, h⟩ := bind_ok.1 h
        rw [pure_ok] at h
        subst h
        simp [ih hcs]
    exact this hb
  rw [hb', hidx]
  simp [hf.Im_length]

/-- **C15 (partial).** For every file, the summary is printed and its entry for that file has the file's sensor names and number of
match-ups; the state rows of both sensors are the file's own rows and the uncertainty types the declared ones; the K rows are the file's K
when it has fewer than ten match-ups.  Missing: the last K row of a longer series, and the number of series. -/
theorem C15_series_entry_partial (env : ReadEnv α δ) (he : EnumOk env.enumNat) (ds : List (Dataset α))
    (hc : ConsistentFiles ds) (mu : MatchUp α δ) (h : openMatchUp env ds = .ok mu) (i : Nat) (d : Dataset α)
    (hd : ds[i]? = some d) :
    ∃ s e, summary mu = .ok s ∧ s.body[i]? = some e ∧ e.sensor1 = d.s1.name ∧ e.sensor2 = d.s2.name ∧ e.matchups = d.M ∧
      e.state = [shown d.M fun r => (List.range d.s1.m).map (d.s1.X r), shown d.M fun r => (List.range d.s2.m).map (d.s2.X r)] ∧
      e.types = [(List.range d.s1.m).map d.s1.utype, (List.range d.s2.m).map d.s2.utype] ∧
      (d.M < 10 → e.ks = shown d.M d.K) ∧
      (10 ≤ d.M → ∃ k, mu.ks[(((ds.map (·.M)).take i).sum + (ds.map (·.M)).sum - 1) % (ds.map (·.M)).sum]? = some k ∧
        e.ks = [some (d.K 0), some (d.K 1), some (d.K 2), none, some k]) := by
  obtain ⟨x, mx, hx, hf⟩ := getIdx_facts (openMatchUp_nonempty h)
  obtain ⟨x', hx', hv, hko, _, _, _, _, _, _, hu, _, _, hidx, _⟩ := openMatchUp_inv h
  rw [hx] at hx'; cases hx'
  have h2 := C02_boundaries_partition env ds hc mu h
  have hK := C05_series_data env ds mu h
  have hkl : mu.ks.length = (ds.map (·.M)).sum := hK.1
  -- one series
  have key : ∀ (i : Nat) (d : Dataset α), ds[i]? = some d → ∃ e, seriesSummary mu ((x.sensors.idxOf d.s1.name, x.sensors.idxOf d.s2.name), i) = .ok e ∧
      e.sensor1 = d.s1.name ∧ e.sensor2 = d.s2.name ∧ e.matchups = d.M ∧
      e.state = [shown d.M fun r => (List.range d.s1.m).map (d.s1.X r), shown d.M fun r => (List.range d.s2.m).map (d.s2.X r)] ∧
      e.types = [(List.range d.s1.m).map d.s1.utype, (List.range d.s2.m).map d.s2.utype] ∧
      (d.M < 10 → e.ks = shown d.M d.K) ∧
      (10 ≤ d.M → ∃ k, mu.ks[(((ds.map (·.M)).take i).sum + (ds.map (·.M)).sum - 1) % (ds.map (·.M)).sum]? = some k ∧
        e.ks = [some (d.K 0), some (d.K 1), some (d.K 2), none, some k]) := by
    intro i d hd
    have hmem := List.mem_of_getElem? hd
    have hil : i < ds.length := (List.getElem?_eq_some_iff.1 hd).1
    have hNm : pyGet mu.idx.Nm i = .ok d.M := by
      have : mu.idx.Nm[i]? = some d.M := by rw [hidx]; simp [hf.Nm, hd]
      rw [pyGet, this]
    have hsens : ∀ s, (s = d.s1 ∨ s = d.s2) → pyGet mu.idx.sensors (x.sensors.idxOf s.name) = .ok s.name := by
      intro s hs
      have := hf.sens_lookup (mem_sides.2 ⟨d, hmem, hs⟩)
      rw [pyGet, hidx]; simp only [this]
    have hms : ∀ s, (s = d.s1 ∨ s = d.s2) → pyGet mu.idx.sensor_ms (x.sensors.idxOf s.name) = .ok s.m := by
      intro s hs
      have := hf.ms_lookup hc (mem_sides.2 ⟨d, hmem, hs⟩)
      rw [pyGet, hidx]; simp only [this]
    have hrow : ∀ s, (s = d.s1 ∨ s = d.s2) → ∀ (r : Int) (k : Nat), k < d.M →
        (∀ c, pyGetInt ((List.range d.M).map fun r => s.X r c) r = .ok (s.X k c)) →
        stateRow mu i (x.sensors.idxOf s.name) r = .ok ((List.range s.m).map (s.X k)) := by
      intro s hs r k hk hget
      unfold stateRow
      refine bind_ok.2 ⟨_, hsens s hs, bind_ok.2 ⟨_, hms s hs, ?_⟩⟩
      apply mapM_ok_of
      intro c hcm
      rw [List.mem_range] at hcm
      refine bind_ok.2 ⟨_, C03_getVariableData env ds hc mu h s.name (i+1) (c+1) _
        ⟨d, s, by omega, by simpa using hd, hs, rfl, by omega, by omega, rfl⟩, ?_⟩
      simpa using hget c
    have hstate : ∀ s, (s = d.s1 ∨ s = d.s2) → printedRows d.M (stateRow mu i (x.sensors.idxOf s.name)) =
        .ok (shown d.M fun r => (List.range s.m).map (s.X r)) := by
      intro s hs
      have hn : ∀ k < d.M, stateRow mu i (x.sensors.idxOf s.name) (k : Int) = .ok ((List.range s.m).map (s.X k)) := by
        intro k hk
        refine hrow s hs _ k hk fun c => ?_
        rw [pyGetInt_nonneg, pyGet]
        simp [List.getElem?_range hk]
      by_cases h10 : d.M < 10
      · rw [printedRows_short h10 hn]; simp [shown, h10]
      · have := printedRows_long h10 (hn 0 (by omega)) (hn 1 (by omega)) (hn 2 (by omega)) (hrow s hs (-1) (d.M - 1) (by omega) fun c => by
          rw [pyGetInt_last _ (by intro hh; simp at hh; omega), pyGet]
          simp [List.getElem?_range (show d.M - 1 < d.M by omega)])
        simp only [shown, if_neg h10]
        exact this
    have htypes : ∀ s, (s = d.s1 ∨ s = d.s2) → typeRow mu i (x.sensors.idxOf s.name) = .ok ((List.range s.m).map s.utype) := by
      intro s hs
      unfold typeRow
      refine bind_ok.2 ⟨_, hms s hs, ?_⟩
      apply mapM_ok_of
      intro c hcm
      rw [List.mem_range] at hcm
      obtain ⟨keys, b, ub, hkeys, hkb, hub, hty⟩ := C10_declared_uncertainty env he ds hc mu h i d hd s hs c hcm
      have hkeys' : keys = x.blocks.map fun b => (x.sensors.getD b.1 "", b.2.1, b.2.2) := by
        rw [hidx] at hkeys
        have := hf.names hc
        have h3 := this.symm.trans hkeys
        exact (Except.ok.inj h3).symm
      have hbm : (x.sensors.idxOf s.name, i + 1, c + 1) ∈ x.blocks :=
        (hf.mem_blocks hc).2 ⟨by omega, by omega, d, s, by simpa using hd, hs, rfl, by omega⟩
      obtain ⟨b', hb'⟩ := List.mem_iff_getElem?.1 hbm
      have hbb : b' = b := by
        have hkb' : keys[b']? = some (s.name, i + 1, c + 1) := by
          rw [hkeys', List.getElem?_map, hb']
          have e1 := hf.sens_lookup (mem_sides.2 ⟨d, hmem, hs⟩)
          simp only [Option.map_some, List.getD, e1, Option.getD_some]
        have hnd : keys.Nodup := by rw [hkeys']; exact hf.name_inj hc
        rw [← idxOf_of_getElem? hnd hkb', idxOf_of_getElem? hnd hkb]
      subst hbb
      have hblk : mu.idx.blocks = x.blocks := by rw [hidx]; rfl
      refine bind_ok.2 ⟨b', by rw [hblk, pyIndex_of_mem hbm, idxOf_of_getElem? (hf.nodup hc) hb'], ?_⟩
      refine bind_ok.2 ⟨ub, by rw [pyGet, hub], ?_⟩
      rw [pure_ok]
      rcases hty with ⟨h1, h2⟩ | ⟨h1, h2⟩ | ⟨_, _, _, _, _, _, _, _, _, ⟨h1, h2⟩ | ⟨h1, _, h2⟩⟩ <;> rw [h1, h2] <;> rfl
    obtain ⟨lo, hi', hlo, hhi, hlh, hks, _⟩ := hK.2.2 i d hd
    have hlo' : lo = ((ds.map (·.M)).take i).sum := by
      rw [hidx] at hlo
      have := hf.cNm_get (i := i) (by omega)
      simp only [this, Option.some.injEq] at hlo
      exact hlo.symm
    have hkn : ∀ k < d.M, pyGetInt mu.ks ((lo : Int) + (k : Int)) = .ok (d.K k) := by
      intro k hk
      rw [← Int.natCast_add, pyGetInt_nonneg, pyGet]
      have : mu.ks[lo + k]? = some (d.K k) := by
        have := slice_getElem? mu.ks lo hi' k
        rw [hks, if_pos (by omega)] at this
        rw [← this]
        simp [List.getElem?_range hk]
      rw [this]
    have hkrows : ∃ kr, printedRows d.M (fun r => pyGetInt mu.ks ((lo : Int) + r)) = .ok kr ∧ (d.M < 10 → kr = shown d.M d.K) ∧
      (10 ≤ d.M → ∃ k, mu.ks[(((ds.map (·.M)).take i).sum + (ds.map (·.M)).sum - 1) % (ds.map (·.M)).sum]? = some k ∧
        kr = [some (d.K 0), some (d.K 1), some (d.K 2), none, some k]) := by
      by_cases h10 : d.M < 10
      · exact ⟨_, printedRows_short h10 hkn, fun _ => by simp [shown, h10], fun h => by omega⟩
      · have hle : hi' ≤ (ds.map (·.M)).sum := by
          rw [hlh, hlo']
          have h3 := take_sum_le_take_sum (ds.map (·.M)) (i := i + 1) (j := ds.length) (by omega)
          rw [List.take_of_length_le (l := ds.map (·.M)) (i := ds.length) (by simp)] at h3
          rw [take_succ_sum (ds.map (·.M)) (i := i) (n := d.M) (by simp [hd])] at h3
          exact h3
        have hidxlt : (lo + (ds.map (·.M)).sum - 1) % (ds.map (·.M)).sum < mu.ks.length := by
          rw [hkl]; exact Nat.mod_lt _ (by omega)
        obtain ⟨k, hk⟩ : ∃ k, mu.ks[(lo + (ds.map (·.M)).sum - 1) % (ds.map (·.M)).sum]? = some k :=
          ⟨_, List.getElem?_eq_getElem hidxlt⟩
        have hlast : pyGetInt mu.ks ((lo : Int) + (-1)) = .ok k := by
          unfold pyGetInt
          by_cases hz : lo = 0
          · rw [if_neg (by omega), if_pos (by omega)]
            have e : ((mu.ks.length : Int) + ((lo : Int) + -1)).toNat = (lo + (ds.map (·.M)).sum - 1) % (ds.map (·.M)).sum := by
              rw [hz, hkl, Nat.mod_eq_of_lt (by omega)]; omega
            rw [e, pyGet, hk]
          · rw [if_pos (by omega)]
            have e : ((lo : Int) + -1).toNat = (lo + (ds.map (·.M)).sum - 1) % (ds.map (·.M)).sum := by
              have : lo + (ds.map (·.M)).sum - 1 = (lo - 1) + (ds.map (·.M)).sum := by omega
              rw [this, Nat.add_mod_right, Nat.mod_eq_of_lt (by omega)]; omega
            rw [e, pyGet, hk]
        refine ⟨_, printedRows_long h10 (by simpa using hkn 0 (by omega)) (by simpa using hkn 1 (by omega))
          (by simpa using hkn 2 (by omega)) hlast, fun h => absurd h h10, fun _ => ⟨k, by rw [← hlo']; exact hk, rfl⟩⟩
    obtain ⟨kr, hkr, hkr1, hkr2⟩ := hkrows
    refine ⟨⟨d.s1.name, d.s2.name, d.M, _, _, kr⟩, ?_, rfl, rfl, rfl, rfl, rfl, hkr1, hkr2⟩
    unfold seriesSummary
    refine bind_ok.2 ⟨_, hNm, bind_ok.2 ⟨_, hsens d.s1 (.inl rfl), bind_ok.2 ⟨_, hsens d.s2 (.inr rfl), ?_⟩⟩⟩
    have hst : (pairList (x.sensors.idxOf d.s1.name, x.sensors.idxOf d.s2.name)).mapM
        (fun s => printedRows d.M (stateRow mu i s)) =
        .ok [shown d.M fun r => (List.range d.s1.m).map (d.s1.X r), shown d.M fun r => (List.range d.s2.m).map (d.s2.X r)] := by
      simp only [pairList, List.mapM_cons, List.mapM_nil, hstate d.s1 (.inl rfl), hstate d.s2 (.inr rfl)]
      rfl
    have htt : (pairList (x.sensors.idxOf d.s1.name, x.sensors.idxOf d.s2.name)).mapM (typeRow mu i) =
        .ok [(List.range d.s1.m).map d.s1.utype, (List.range d.s2.m).map d.s2.utype] := by
      simp only [pairList, List.mapM_cons, List.mapM_nil, htypes d.s1 (.inl rfl), htypes d.s2 (.inr rfl)]
      rfl
    exact bind_ok.2 ⟨_, hst, bind_ok.2 ⟨_, htt, bind_ok.2 ⟨lo, by rw [pyGet, hlo], bind_ok.2 ⟨kr, hkr, rfl⟩⟩⟩⟩
  -- all series
  have hIm : mu.idx.Im = ds.map fun d => (x.sensors.idxOf d.s1.name, x.sensors.idxOf d.s2.name) := by rw [hidx]; exact hf.Im
  have hall : ∃ body, mu.idx.Im.zipIdx.mapM (seriesSummary mu) = .ok body ∧
      ∀ (i : Nat) (d : Dataset α), ds[i]? = some d → ∃ e, body[i]? = some e ∧
        seriesSummary mu ((x.sensors.idxOf d.s1.name, x.sensors.idxOf d.s2.name), i) = .ok e := by
    have hex : ∀ p ∈ mu.idx.Im.zipIdx, ∃ e, seriesSummary mu p = .ok e := by
      rintro ⟨p, j⟩ hp
      rw [List.mem_zipIdx_iff_getElem?, hIm, List.getElem?_map] at hp
      cases hj : ds[j]? with
      | none => rw [hj] at hp; cases hp
      | some d' =>
        rw [hj] at hp
        simp only [Option.map_some, Option.some.injEq] at hp
        obtain ⟨e, he', _⟩ := key j d' hj
        exact ⟨e, by rw [← hp]; exact he'⟩
    have hg : ∀ p ∈ mu.idx.Im.zipIdx, seriesSummary mu p = .ok (match seriesSummary mu p with
        | .ok e => e
        | .error _ => ⟨"", "", 0, [], [], []⟩) := by
      intro p hp
      obtain ⟨e, he'⟩ := hex p hp
      rw [he']
    refine ⟨_, mapM_ok_of hg, ?_⟩
    intro j d' hj
    obtain ⟨e, he', _⟩ := key j d' hj
    refine ⟨e, ?_, he'⟩
    rw [List.getElem?_map, List.getElem?_zipIdx, hIm, List.getElem?_map, hj]
    simp only [Option.map_some, Nat.zero_add, he']
  obtain ⟨body, hbody, hb2⟩ := hall
  obtain ⟨e, he1, he2⟩ := hb2 i d hd
  obtain ⟨e', he3, hrest⟩ := key i d hd
  rw [he2] at he3
  cases he3
  have htot : ∃ tv, pyGet mu.idx.idx (mu.idx.idx.length - 1) = .ok tv := by
    have hlast := h2.2.2.1
    rw [List.getLast?_eq_getElem?] at hlast
    exact ⟨_, by rw [pyGet, hlast]⟩
  obtain ⟨tv, htv⟩ := htot
  refine ⟨⟨mu.idx.sensors, (ds.map (·.M)).sum, mu.idx.cNm.length, tv, body⟩, e, ?_, he1, hrest⟩
  unfold summary
  refine bind_ok.2 ⟨(ds.map (·.M)).sum, ?_, bind_ok.2 ⟨tv, htv, bind_ok.2 ⟨body, hbody, rfl⟩⟩⟩
  rw [hidx]; exact hf.cNm_last

/-- Two files, the second with twelve match-ups. -/
def Fixture.longFiles : List (Dataset Int) :=
  [Fixture.file 3 (Fixture.side "A" 1 0 1) (Fixture.side "B" 1 100 1) [],
   { Fixture.file 12 (Fixture.side "B" 1 200 1) (Fixture.side "C" 1 300 1) [] with K := fun i => (70 + i : Nat) }]

/-- **C15 is false of the code, 2:** the last K row printed for a long series is the last K of the series before it. -/
theorem C15_last_K_row_wrong : ∃ mu s e, openMatchUp Fixture.env Fixture.longFiles = .ok mu ∧ summary mu = .ok s ∧
    s.series = 3 ∧ s.body[1]? = some e ∧ e.ks = [some 70, some 71, some 72, none, some 9] ∧
    shown 12 (fun i => ((70 + i : Nat) : Int)) = [some 70, some 71, some 72, none, some 81] :=
  ⟨_, _, _, rfl, rfl, by decide, rfl, by decide, by decide⟩

end Verif
