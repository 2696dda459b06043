import Verif.Lemmas.ReaderSeries
/-
Properties C01-C07 of the match-up reader.
-/
set_option autoImplicit false
namespace Verif
variable {α δ : Type} [Zero α] [DecidableEq α]

/-! ### Concrete files used to show that hypotheses are satisfiable -/
namespace Fixture

/-- A side whose data are numbered so that all entries differ. -/
def side (name : String) (m base : Nat) (ty : Nat) : Side Int where
  name := name
  m := m
  X := fun r c => (base + 100 * c + r : Nat)
  Ur := fun r c => (1 + r + c : Nat)
  Us := fun _ c => (2 + c : Nat)
  utype := fun _ => ty
  wUse := fun _ => 0
  uUse := fun _ => 0

/-- A file with `M` match-ups. -/
def file (M : Nat) (s1 s2 : Side Int) (vars : List (String × NcVar Int)) : Dataset Int where
  M := M
  s1 := s1
  s2 := s2
  K := fun i => (i + 7 : Nat)
  Kr := fun i => (i + 1 : Nat)
  Ks := fun _ => 0
  time1 := fun i => (1000 + i : Nat)
  time2 := fun i => (2000 + i : Nat)
  hasUse := false
  vars := vars
  wNnz := []
  wVal := []
  wCol := []
  wRow := []
  uCount := []
  uVal := []

/-- Two files between three sensors; the reference sensor has one covariate, the others two. -/
def files : List (Dataset Int) :=
  [ file 3 (side "A" 1 0 1) (side "B" 2 1000 1) [("lat1", ⟨["M"], [5, -1, 6]⟩), ("across_track_index1", ⟨["M"], [1, 2, 3]⟩)],
    file 2 (side "B" 2 5000 2) (side "C" 2 9000 2) [("lat1", ⟨["M"], [8, 9]⟩), ("scale", ⟨["one"], [4]⟩)] ]

/-- Runtime conventions for the fixture: nan is -99, fill is -1. -/
def env : ReadEnv Int Int where
  nan := -99
  fill := -1
  toInt := id
  rss := fun a b => a + b
  dateZero := 0
  toDate := id
  enumStr := List.eraseDups
  enumNat := List.eraseDups

theorem files_consistent : ConsistentFiles files := by
  constructor
  · intro d hd
    simp only [files, List.mem_cons, List.not_mem_nil, or_false] at hd
    rcases hd with rfl | rfl <;> decide
  · intro d hd e he s hs t ht
    simp only [files, List.mem_cons, List.not_mem_nil, or_false] at hd he
    simp only [List.mem_cons, List.not_mem_nil, or_false] at hs ht
    rcases hd with rfl | rfl <;> rcases he with rfl | rfl <;> rcases hs with rfl | rfl <;>
      rcases ht with rfl | rfl <;> decide

theorem files_open : ∃ mu, openMatchUp env files = .ok mu ∧
    mu.values = [0, 1, 2, 1000, 1001, 1002, 5000, 5001, 9000, 9001, 1100, 1101, 1102, 5100, 5101, 9100, 9101] := by
  refine ⟨_, rfl, ?_⟩
  decide

end Fixture

/-! ### C01 -/

/-- **C01.** For any non-empty list of consistent files the block table is built, its three columns have equal length, and
(with sensors given by name) it lists every column of every file exactly once and nothing else. -/
theorem C01_blocks_complete_unique {α : Type} (ds : List (Dataset α)) (hne : ds ≠ []) (hc : ConsistentFiles ds) :
    ∃ x keys, getIdx ds = .ok x ∧ x.nameBlocks = .ok keys ∧
      x.n_sensor.length = keys.length ∧ x.n_mu.length = keys.length ∧ x.n_cov.length = keys.length ∧
      x.N_var.length = keys.length ∧ keys.Nodup ∧
      ∀ name series cov, (name, series, cov) ∈ keys ↔ ∃ col, FileColumn ds name series cov col := by
  obtain ⟨x, mx, hx, h⟩ := getIdx_facts hne
  refine ⟨x, _, hx, h.names hc, ?_, ?_, ?_, ?_, h.name_inj hc, fun _ _ _ => h.mem_names hc⟩
  · rw [h.n_sensor, h.blocks]; simp
  · rw [h.n_mu, h.blocks]; simp
  · rw [h.n_cov, h.blocks]; simp
  · rw [h.N_var_length]; simp

example : ∃ x keys, getIdx Fixture.files = .ok x ∧ x.nameBlocks = .ok keys ∧ keys.length = 7 := by
  refine ⟨_, _, rfl, rfl, by decide⟩

/-- Without the hypothesis that the two sensors of a file differ the table lists a block twice. -/
theorem C01_same_sensor_twice_fails : ∃ x keys,
    getIdx [Fixture.file 1 (Fixture.side "A" 1 0 1) (Fixture.side "A" 1 5 1) []] = .ok x ∧
      x.nameBlocks = .ok keys ∧ ¬ keys.Nodup := by
  refine ⟨_, _, rfl, rfl, by decide⟩

/-! ### C02 -/

/-- **C02.** The block boundaries of an opened match-up start at 0, never decrease, end at the length of the data array, each
block is as long as the match-up series it belongs to, and the total is the sum over the files of `M * (m1 + m2)`. -/
theorem C02_boundaries_partition (env : ReadEnv α δ) (ds : List (Dataset α)) (hc : ConsistentFiles ds)
    (mu : MatchUp α δ) (h : openMatchUp env ds = .ok mu) :
    mu.idx.idx.length = mu.idx.n_mu.length + 1 ∧
    mu.idx.idx[0]? = some 0 ∧
    mu.idx.idx.getLast? = some mu.values.length ∧
    mu.values.length = (ds.map fun d => d.M * (d.s1.m + d.s2.m)).sum ∧
    (∀ b series, mu.idx.n_mu[b]? = some series → ∃ d lo hi, ds[series - 1]? = some d ∧
      mu.idx.idx[b]? = some lo ∧ mu.idx.idx[b+1]? = some hi ∧ hi = lo + d.M) := by
  obtain ⟨x, mx, hx, hf⟩ := getIdx_facts (openMatchUp_nonempty h)
  obtain ⟨x', hx', hv, _, _, _, _, _, _, _, _, _, _, hidx, _⟩ := openMatchUp_inv h
  rw [hx] at hx'; cases hx'
  rw [hidx]
  obtain ⟨out, ho, hol, _⟩ := openValues_spec hf hc
  rw [hv] at ho; cases ho
  have hnl : x.N_var.length = x.n_mu.length := by rw [hf.N_var]; simp
  refine ⟨by simp [hf.idx, hnl], ?_, ?_, ?_, ?_⟩
  · simp only [hf.idx]; rw [prefixSums_getElem?_of_le _ (Nat.zero_le _)]; simp
  · simp only [hf.idx, prefixSums_getLast, hol]
  · rw [hol, hf.total hc]
  · intro b series hb
    simp only at hb
    have hbl : b < x.n_mu.length := (List.getElem?_eq_some_iff.1 hb).1
    have hb' : ∃ n c, x.blocks[b]? = some (n, series, c) := by
      rw [hf.n_mu, ← hf.blocks, List.getElem?_map] at hb
      cases hq : x.blocks[b]? with
      | none => rw [hq] at hb; cases hb
      | some q =>
        rw [hq] at hb
        obtain ⟨n, i, c⟩ := q
        simp only [Option.map_some, Option.some.injEq] at hb
        exact ⟨n, c, by rw [hb]⟩
    obtain ⟨n, c, hb'⟩ := hb'
    obtain ⟨_, _, d, s, hd, _⟩ := (hf.mem_blocks hc).1 (List.mem_of_getElem? hb')
    have hN := hf.N_var_get hb' hd
    refine ⟨d, (x.N_var.take b).sum, (x.N_var.take (b+1)).sum, hd, ?_, ?_, take_succ_sum _ hN⟩
    · simp only [hf.idx]; exact prefixSums_getElem?_of_le _ (by omega)
    · simp only [hf.idx]; exact prefixSums_getElem?_of_le _ (by omega)

example : ∃ mu, openMatchUp Fixture.env Fixture.files = .ok mu ∧
    mu.idx.idx = [0, 3, 6, 8, 10, 13, 15, 17] := ⟨_, rfl, by decide⟩

/-! ### C03 -/

/-- **C03.** Asking the opened match-up for a variable of a sensor in a series returns exactly the file's data column. -/
theorem C03_getVariableData (env : ReadEnv α δ) (ds : List (Dataset α)) (hc : ConsistentFiles ds)
    (mu : MatchUp α δ) (h : openMatchUp env ds = .ok mu) (name : String) (series cov : Nat) (col : List α)
    (hcol : FileColumn ds name series cov col) : mu.getVariableData cov name (.num series) = .ok col := by
  obtain ⟨x, mx, hx, hf⟩ := getIdx_facts (openMatchUp_nonempty h)
  obtain ⟨x', hx', hv, _, _, _, _, _, _, _, _, _, _, hidx, _⟩ := openMatchUp_inv h
  rw [hx] at hx'; cases hx'
  obtain ⟨d, s, h1, hd, hs, hn, h2, hm, rfl⟩ := hcol
  obtain ⟨out, ho, hol, hsl⟩ := openValues_spec hf hc
  rw [hv] at ho; cases ho
  have hb : (x.sensors.idxOf s.name, series, cov) ∈ x.blocks := (hf.mem_blocks hc).2 ⟨h1, h2, d, s, hd, hs, rfl, hm⟩
  obtain ⟨b, hb⟩ := List.mem_iff_getElem?.1 hb
  have hbl : b < x.blocks.length := (List.getElem?_eq_some_iff.1 hb).1
  have hnb : (x.blocks.map fun b => (x.sensors.getD b.1 "", b.2.1, b.2.2))[b]? = some (name, series, cov) := by
    rw [List.getElem?_map, hb]
    have e1 := hf.sens_lookup (mem_sides.2 ⟨d, List.mem_of_getElem? hd, hs⟩)
    simp only [Option.map_some, List.getD, e1, Option.getD_some]
    rw [hn]
  have hN := hf.N_var_length
  have hnames : mu.idx.nameBlocks = .ok (x.blocks.map fun b => (x.sensors.getD b.1 "", b.2.1, b.2.2)) := by
    rw [hidx]; exact hf.names hc
  unfold MatchUp.getVariableData
  rw [hnames]
  simp only [bind, Except.bind]
  rw [pyIndex_of_mem (List.mem_of_getElem? hnb), idxOf_of_getElem? (hf.name_inj hc) hnb]
  have hi : mu.idx.idx = prefixSums x.N_var := by rw [hidx]; exact hf.idx
  simp only [hi, pyGet]
  rw [prefixSums_getElem?_of_le _ (by omega), prefixSums_getElem?_of_le _ (by omega)]
  simp only [pure, Except.pure]
  rw [hsl (series - 1) d s (cov - 1) b hd hs (by omega) (by
    rw [show series - 1 + 1 = series by omega, show cov - 1 + 1 = cov by omega]; exact hb)]
  rfl

/-- **C03, other direction.** A variable that no file has is rejected with `ValueError`. -/
theorem C03_getVariableData_absent (env : ReadEnv α δ) (ds : List (Dataset α)) (hc : ConsistentFiles ds)
    (mu : MatchUp α δ) (h : openMatchUp env ds = .ok mu) (name : String) (series cov : Nat)
    (hno : ∀ col, ¬ FileColumn ds name series cov col) :
    mu.getVariableData cov name (.num series) = .error .valueError := by
  obtain ⟨x, mx, hx, hf⟩ := getIdx_facts (openMatchUp_nonempty h)
  obtain ⟨x', hx', hv, _, _, _, _, _, _, _, _, _, _, hidx, _⟩ := openMatchUp_inv h
  rw [hx] at hx'; cases hx'
  have hnames : mu.idx.nameBlocks = .ok (x.blocks.map fun b => (x.sensors.getD b.1 "", b.2.1, b.2.2)) := by
    rw [hidx]; exact hf.names hc
  have hnot : (name, series, cov) ∉ (x.blocks.map fun b => (x.sensors.getD b.1 "", b.2.1, b.2.2)) := by
    intro hm
    obtain ⟨col, hcol⟩ := (hf.mem_names hc).1 hm
    exact hno col hcol
  unfold MatchUp.getVariableData
  rw [hnames]
  simp only [bind, Except.bind]
  rw [pyIndex, if_neg hnot]

example : FileColumn Fixture.files "B" 2 2 [5100, 5101] := by
  refine ⟨_, (Fixture.side "B" 2 5000 2), by decide, rfl, .inl rfl, rfl, by decide, by decide, by decide⟩

/-! ### C04 -/

/-- **C04.** The sensors are the names occurring in the files, each once, in order of first appearance, and the pair of
indices of each series decodes to the names of the file's two sensors. -/
theorem C04_sensors_and_pairs (env : ReadEnv α δ) (ds : List (Dataset α)) (mu : MatchUp α δ)
    (h : openMatchUp env ds = .ok mu) :
    mu.idx.sensors = (ds.flatMap fun d => [d.s1.name, d.s2.name]).eraseDups ∧
    mu.idx.sensors.Nodup ∧
    mu.idx.Im.length = ds.length ∧
    ∀ (i : Nat) (d : Dataset α), ds[i]? = some d → ∃ a b, mu.idx.Im[i]? = some (a, b) ∧
      mu.idx.sensors[a]? = some d.s1.name ∧ mu.idx.sensors[b]? = some d.s2.name := by
  obtain ⟨x, mx, hx, hf⟩ := getIdx_facts (openMatchUp_nonempty h)
  obtain ⟨x', hx', hv, _, _, _, _, _, _, _, _, _, _, hidx, _⟩ := openMatchUp_inv h
  rw [hx] at hx'; cases hx'
  rw [hidx]
  refine ⟨?_, hf.sens_nodup, hf.Im_length, ?_⟩
  · simp only [hf.sensors, map_flatMap', Dataset.sides, List.map_cons, List.map_nil]
  · intro i d hd
    have hm := List.mem_of_getElem? hd
    refine ⟨x.sensors.idxOf d.s1.name, x.sensors.idxOf d.s2.name, ?_,
      hf.sens_lookup (mem_sides.2 ⟨d, hm, .inl rfl⟩), hf.sens_lookup (mem_sides.2 ⟨d, hm, .inr rfl⟩)⟩
    simp only [hf.Im, List.getElem?_map, hd, Option.map_some]

example : ∃ mu, openMatchUp Fixture.env Fixture.files = .ok mu ∧ mu.idx.sensors = ["A", "B", "C"] ∧
    mu.idx.Im = [(0, 1), (1, 2)] := ⟨_, rfl, by decide, by decide⟩

/-! ### C05 -/

/-- **C05.** The K array has one entry per match-up; the part of it between the boundaries of series `i` is the file's K; the K
uncertainty of series `i` combines the file's `Kr` and `Ks` entry by entry; and asking for the times of either sensor
of the series gives the file's times converted to dates. -/
theorem C05_series_data (env : ReadEnv α δ) (ds : List (Dataset α)) (mu : MatchUp α δ)
    (h : openMatchUp env ds = .ok mu) :
    mu.ks.length = (ds.map (·.M)).sum ∧ mu.unck.length = ds.length ∧
    ∀ (i : Nat) (d : Dataset α), ds[i]? = some d → ∃ lo hi, mu.idx.cNm[i]? = some lo ∧ mu.idx.cNm[i+1]? = some hi ∧ hi = lo + d.M ∧
      slice mu.ks lo hi = (List.range d.M).map d.K ∧
      mu.unck[i]? = some ((List.range d.M).map fun r => env.rss (d.Kr r) (d.Ks r)) ∧
      mu.getSensorTime (i + 1) d.s1.name = .ok (some ((List.range d.M).map fun r => env.toDate (d.time1 r))) ∧
      (d.s1.name ≠ d.s2.name →
        mu.getSensorTime (i + 1) d.s2.name = .ok (some ((List.range d.M).map fun r => env.toDate (d.time2 r)))) := by
  obtain ⟨x, mx, hx, hf⟩ := getIdx_facts (openMatchUp_nonempty h)
  obtain ⟨x', hx', _, hk, ⟨t1, ht1, hT1⟩, ⟨t2, ht2, hT2⟩, _, _, _, _, _, huk, _, hidx, _⟩ := openMatchUp_inv h
  rw [hx] at hx'; cases hx'
  have hK : mu.ks = (ds.map fun d => vector d.M d.K).flatten := by
    unfold openKs at hk
    rw [hf.cNm_last] at hk
    simp only [bind, Except.bind] at hk
    rw [series_ok hf 0 _ (by simp)] at hk
    exact (Except.ok.inj hk).symm
  have hT : ∀ (sel : Dataset α → Nat → α) t, openTime env.dateZero env.toDate sel ds x = .ok t →
      t = (ds.map fun d => (vector d.M (sel d)).map env.toDate).flatten := by
    intro sel t ht
    unfold openTime at ht
    rw [hf.cNm_last] at ht
    simp only [bind, Except.bind] at ht
    rw [series_ok hf env.dateZero _ (by simp)] at ht
    cases ht; rfl
  refine ⟨?_, ?_, ?_⟩
  · rw [hK, series_length _ (by simp)]
  · rw [huk]; simp [openUncK]
  · intro i d hd
    have hi : i < ds.length := (List.getElem?_eq_some_iff.1 hd).1
    have hM : (ds.map (·.M))[i]? = some d.M := by simp [hd]
    refine ⟨_, _, by rw [hidx]; exact hf.cNm_get (by omega), by rw [hidx]; exact hf.cNm_get (by omega),
      take_succ_sum _ hM, ?_, ?_, ?_, ?_⟩
    · rw [hK]; exact series_slice _ (by simp) hd
    · rw [huk]; simp [openUncK, hd, vector]
    · unfold MatchUp.getSensorTime
      rw [hidx, getSensorArray_additional, getSensorArray_ok hf _ _ hd]
      simp only [if_true]
      rw [hT1, hT _ _ ht1, Option.map_some, series_slice _ (by simp) hd]
      simp [vector, Function.comp_def]
    · intro hne
      unfold MatchUp.getSensorTime
      rw [hidx, getSensorArray_additional, getSensorArray_ok hf _ _ hd]
      simp only [if_neg (Ne.symm hne), if_true]
      rw [hT2, hT _ _ ht2, Option.map_some, series_slice _ (by simp) hd]
      simp [vector, Function.comp_def]

example : ∃ mu, openMatchUp Fixture.env Fixture.files = .ok mu ∧ mu.ks = [7, 8, 9, 7, 8] ∧
    mu.getSensorTime 2 "C" = .ok (some [2000, 2001]) := ⟨_, rfl, by decide, by decide⟩

/-! ### C06 -/

/-- The optional variable `name` has one entry per match-up in every file that has it. -/
def ShapedVar {α : Type} (ds : List (Dataset α)) (name : String) : Prop :=
  ∀ d ∈ ds, ∀ v, d.var? name = some v → v.data.length = d.M

/-- What an optional index variable of a file reads as. -/
def indexData {α δ : Type} (env : ReadEnv α δ) (name : String) (d : Dataset α) : List α :=
  match d.var? name with
  | some v => v.data.map env.toInt
  | none => List.replicate d.M env.nan

theorem openOptionalIndex_eq {env : ReadEnv α δ} {ds : List (Dataset α)} {x : Idx} {mx : Nat} (hf : IdxFacts ds x mx)
    (name : String) (hs : ShapedVar ds name) :
    openOptionalIndex env.nan env.toInt name ds x =
      .ok (if ∃ d ∈ ds, (d.var? name).isSome then some (ds.map (indexData env name)).flatten else none) := by
  unfold openOptionalIndex
  by_cases hex : ∃ d ∈ ds, (d.var? name).isSome
  · rw [if_pos (by simpa using hex), if_pos hex, hf.cNm_last]
    have := series_ok hf (0 : α) (indexData env name) (by
      intro d hd
      unfold indexData
      cases hv : d.var? name with
      | none => simp
      | some v => simp [hs d hd v hv])
    exact bind_ok.2 ⟨_, rfl, bind_ok.2 ⟨_, this, rfl⟩⟩
  · rw [if_neg (by simpa using hex), if_neg hex]

/-- **C06.** For the across-track and along-track indices of either sensor: asking for a sensor of the pair of series `i` gives
`None` iff no file carries the variable of that side; otherwise the file's own values, or nan throughout if this file does not carry
it; asking for a sensor outside the pair raises `IndexError`. -/
theorem C06_track_indices (env : ReadEnv α δ) (ds : List (Dataset α)) (mu : MatchUp α δ)
    (h : openMatchUp env ds = .ok mu)
    (hs : ∀ n ∈ ["across_track_index1", "across_track_index2", "along_track_index1", "along_track_index2"],
      ShapedVar ds n) (i : Nat) (d : Dataset α) (hd : ds[i]? = some d) (hne : d.s1.name ≠ d.s2.name) :
    let expected := fun (n : String) =>
      (.ok (if ∃ e ∈ ds, (e.var? n).isSome then some (indexData env n d) else none) : Py (Option (List α)))
    mu.getSensorAcrossTrackIndex (i + 1) d.s1.name = expected "across_track_index1" ∧
    mu.getSensorAcrossTrackIndex (i + 1) d.s2.name = expected "across_track_index2" ∧
    mu.getSensorAlongTrackIndex (i + 1) d.s1.name = expected "along_track_index1" ∧
    mu.getSensorAlongTrackIndex (i + 1) d.s2.name = expected "along_track_index2" ∧
    ∀ name, name ≠ d.s1.name → name ≠ d.s2.name →
      mu.getSensorAcrossTrackIndex (i + 1) name = .error .indexError ∧
      mu.getSensorAlongTrackIndex (i + 1) name = .error .indexError := by
  obtain ⟨x, mx, hx, hf⟩ := getIdx_facts (openMatchUp_nonempty h)
  obtain ⟨x', hx', _, _, _, _, ha1, ha2, ha3, ha4, _, _, _, hidx, _⟩ := openMatchUp_inv h
  rw [hx] at hx'; cases hx'
  rw [openOptionalIndex_eq hf _ (hs _ (by simp))] at ha1 ha2 ha3 ha4
  simp only [Except.ok.injEq] at ha1 ha2 ha3 ha4
  have hshape : ∀ n ∈ ["across_track_index1", "across_track_index2", "along_track_index1", "along_track_index2"],
      ∀ e ∈ ds, (indexData env n e).length = e.M := by
    intro n hn e he
    unfold indexData
    cases hv : e.var? n with
    | none => simp
    | some v => simp [hs n hn e he v hv]
  have key : ∀ n ∈ ["across_track_index1", "across_track_index2", "along_track_index1", "along_track_index2"],
      ((if ∃ e ∈ ds, (e.var? n).isSome then some (ds.map (indexData env n)).flatten else none).map fun l =>
        slice l ((ds.map (·.M)).take i).sum ((ds.map (·.M)).take (i+1)).sum) =
      (if ∃ e ∈ ds, (e.var? n).isSome then some (indexData env n d) else none) := by
    intro n hn
    split
    · rw [Option.map_some, series_slice _ (hshape n hn) hd]
    · rfl
  unfold MatchUp.getSensorAcrossTrackIndex MatchUp.getSensorAlongTrackIndex
  simp only [hidx, getSensorArray_additional]
  simp only [getSensorArray_ok hf _ _ hd, ← ha1, ← ha2, ← ha3, ← ha4]
  refine ⟨?_, ?_, ?_, ?_, ?_⟩
  · rw [if_pos trivial, key _ (by simp)]
  · rw [if_neg (Ne.symm hne), if_pos trivial, key _ (by simp)]
  · rw [if_pos trivial, key _ (by simp)]
  · rw [if_neg (Ne.symm hne), if_pos trivial, key _ (by simp)]
  · intro name h1 h2
    simp [h1, h2]

example : ∃ mu, openMatchUp Fixture.env Fixture.files = .ok mu ∧
    mu.getSensorAcrossTrackIndex 1 "A" = .ok (some [1, 2, 3]) ∧ mu.getSensorAcrossTrackIndex 2 "B" = .ok (some [-99, -99]) ∧
    mu.getSensorAcrossTrackIndex 1 "B" = .ok none ∧ mu.getSensorAlongTrackIndex 1 "C" = .error .indexError :=
  ⟨_, rfl, by decide, by decide, by decide, by decide⟩

/-! ### C07 -/

/-- Python enumerates a set without repetition, in some order. -/
def EnumOk {κ : Type} (enum : List κ → List κ) : Prop := ∀ l, (enum l).Nodup ∧ ∀ k, k ∈ enum l ↔ k ∈ l

/-- **C07, names.** The additional variables are exactly the non-standard variables of dimension `("M",)` of the files, each once. -/
theorem C07_names (env : ReadEnv α δ) (he : EnumOk env.enumStr) (ds : List (Dataset α)) (mu : MatchUp α δ)
    (h : openMatchUp env ds = .ok mu) :
    ∃ names, mu.idx.additional_values_name = some names ∧ names.Nodup ∧
      ∀ n, n ∈ names ↔ n ∉ standardVariableNames ∧ ∃ d ∈ ds, ∃ v, (n, v) ∈ d.vars ∧ v.dims = ["M"] := by
  obtain ⟨x', hx', _, _, _, _, _, _, _, _, _, _, _, hidx, _⟩ := openMatchUp_inv h
  refine ⟨additionalNames env.enumStr ds, by rw [hidx], (he _).1, ?_⟩
  intro n
  unfold additionalNames
  rw [(he _).2]
  simp only [Dataset.additionalNames, List.mem_flatMap, List.mem_map, List.mem_filter, Bool.and_eq_true, decide_eq_true_eq,
    Bool.not_eq_true', List.contains_eq_mem, decide_eq_false_iff_not, Prod.exists]
  constructor
  · rintro ⟨d, hd, m, v, ⟨hm, h1, h2⟩, rfl⟩
    exact ⟨h2, d, hd, v, hm, h1⟩
  · rintro ⟨h2, d, hd, v, hm, h1⟩
    exact ⟨d, hd, n, v, ⟨hm, h1, h2⟩, rfl⟩

/-- What an additional variable of a file reads as. -/
def additionalData {α δ : Type} [DecidableEq α] (env : ReadEnv α δ) (name : String) (d : Dataset α) : List α :=
  match d.var? name with
  | some v => v.data.map fun y => if y = env.fill then env.nan else y
  | none => List.replicate d.M env.nan

/-- **C07, values.** Asking for an additional variable for series `i` gives the file's data with fill values replaced by nan (nan
throughout if the file lacks it); without a series number it gives the concatenation over all series. -/
theorem C07_values (env : ReadEnv α δ) (he : EnumOk env.enumStr) (ds : List (Dataset α)) (mu : MatchUp α δ)
    (h : openMatchUp env ds = .ok mu) (hs : ∀ n, ShapedVar ds n) (names : List String)
    (hn : mu.idx.additional_values_name = some names) (name : String) (hmem : name ∈ names) :
    mu.getAdditionalData name none = .ok (ds.map (additionalData env name)).flatten ∧
    ∀ (i : Nat) (d : Dataset α), ds[i]? = some d → mu.getAdditionalData name (some (i + 1)) = .ok (additionalData env name d) := by
  obtain ⟨x, mx, hx, hf⟩ := getIdx_facts (openMatchUp_nonempty h)
  obtain ⟨x', hx', _, _, _, _, _, _, _, _, _, _, ⟨a, had, hA⟩, hidx, _⟩ := openMatchUp_inv h
  rw [hx] at hx'; cases hx'
  rw [hidx] at hn
  simp only [Option.some.injEq] at hn
  have hsh : ∀ n, ∀ d ∈ ds, (additionalData env n d).length = d.M := by
    intro n d hd
    unfold additionalData
    cases hv : d.var? n with
    | none => simp
    | some v => simp [hs n d hd v hv]
  have hcol : ∀ n, openAdditionalColumn env.nan env.fill ds x n = .ok (ds.map (additionalData env n)).flatten := by
    intro n
    unfold openAdditionalColumn
    rw [hf.cNm_last]
    simp only [bind, Except.bind]
    have := series_ok hf (0 : α) (additionalData env n) (hsh n)
    exact this
  have ha : a = names.map fun n => (ds.map (additionalData env n)).flatten := by
    unfold openAdditional at had
    rw [hn, mapM_ok_of (fun n _ => hcol n)] at had
    cases had; rfl
  have hnodup : names.Nodup := by rw [← hn]; exact (he _).1
  have hidxOf : a[names.idxOf name]? = some (ds.map (additionalData env name)).flatten := by
    rw [ha, List.getElem?_map, List.getElem?_eq_getElem (List.idxOf_lt_length_of_mem hmem)]
    simp
  constructor
  · unfold MatchUp.getAdditionalData
    rw [hA, hidx]
    simp only [bind, Except.bind, hn, pyIndex_of_mem hmem, pyGet, hidxOf, pure, Except.pure]
  · intro i d hd
    have hi : i < ds.length := (List.getElem?_eq_some_iff.1 hd).1
    unfold MatchUp.getAdditionalData
    rw [hA, hidx]
    simp only [bind, Except.bind, hn, pyIndex_of_mem hmem, pyGet, hidxOf, pure, Except.pure, Nat.add_sub_cancel,
      hf.cNm_get (show i ≤ ds.length by omega), hf.cNm_get (show i + 1 ≤ ds.length by omega)]
    rw [series_slice _ (hsh name) hd]

example : EnumOk Fixture.env.enumStr := fun l => ⟨nodup_eraseDups l, fun _ => mem_eraseDups_iff⟩

example : ∃ mu, openMatchUp Fixture.env Fixture.files = .ok mu ∧ mu.idx.additional_values_name = some ["lat1"] ∧
    mu.getAdditionalData "lat1" (some 1) = .ok [5, -99, 6] := ⟨_, rfl, by decide, by decide⟩

end Verif
