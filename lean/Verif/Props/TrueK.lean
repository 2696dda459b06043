import Verif.Model.TrueK
import Verif.Props.Switches
/-
Property C70: the tool which writes the K of the sensor models into a data set.
-/
set_option autoImplicit false
namespace Verif
variable {α δ : Type}

/-- The file `d` with other K values. -/
def Dataset.OnlyK (d d' : Dataset α) : Prop := d' = { d with K := d'.K }

theorem put_file (disk : Disk α) (p q : String) (d : Dataset α) : (disk.put p d).file q = if q = p then some d else disk.file q := rfl

theorem openFile_ok {disk : Disk α} {p : String} {d : Dataset α} : disk.openFile p = .ok d ↔ disk.file p = some d := by
  unfold Disk.openFile
  cases disk.file p with
  | none => simp
  | some e => simp

theorem copyTree_fs (disk : Disk α) (src dst : String) : (disk.copyTree src dst).fs = disk.fs := by
  unfold Disk.copyTree
  generalize disk.fs.listDir src = l
  have : ∀ (l : List String) (dk : Disk α), dk.fs = disk.fs → (l.foldl (fun dk n =>
    match disk.file (pjoin src n) with
    | some d => dk.put (pjoin dst n) d
    | none => dk) dk).fs = disk.fs := by
    intro l
    induction l with
    | nil => intro dk h; exact h
    | cons n l ih =>
      intro dk h
      rw [List.foldl_cons]
      apply ih
      cases disk.file (pjoin src n) with
      | none => exact h
      | some d => exact h
  exact this l disk rfl

theorem copyTree_other (disk : Disk α) (src dst p : String) (h : ∀ n ∈ disk.fs.listDir src, p ≠ pjoin dst n) :
    (disk.copyTree src dst).file p = disk.file p := by
  unfold Disk.copyTree
  revert h
  generalize disk.fs.listDir src = l
  intro h
  have : ∀ (l : List String) (dk : Disk α), (∀ n ∈ l, p ≠ pjoin dst n) → dk.file p = disk.file p → (l.foldl (fun dk n =>
    match disk.file (pjoin src n) with
    | some d => dk.put (pjoin dst n) d
    | none => dk) dk).file p = disk.file p := by
    intro l
    induction l with
    | nil => intro dk _ h; exact h
    | cons n l ih =>
      intro dk hn h
      rw [List.foldl_cons]
      refine ih _ (fun m hm => hn m (by simp [hm])) ?_
      cases disk.file (pjoin src n) with
      | none => exact h
      | some d => simp only [put_file]; rw [if_neg (hn n (by simp)), h]
  exact this l disk h rfl

theorem copyTree_copy (disk : Disk α) (src dst n : String) (d : Dataset α) (hd : disk.file (pjoin src n) = some d)
    (hmem : n ∈ disk.fs.listDir src) (hinj : ∀ m ∈ disk.fs.listDir src, pjoin dst m = pjoin dst n → m = n) :
    (disk.copyTree src dst).file (pjoin dst n) = some d := by
  unfold Disk.copyTree
  revert hmem hinj
  generalize disk.fs.listDir src = l
  intro hmem hinj
  have : ∀ (l : List String) (dk : Disk α), (∀ m ∈ l, pjoin dst m = pjoin dst n → m = n) →
    (n ∈ l ∨ dk.file (pjoin dst n) = some d) → (l.foldl (fun dk n =>
    match disk.file (pjoin src n) with
    | some d => dk.put (pjoin dst n) d
    | none => dk) dk).file (pjoin dst n) = some d := by
    intro l
    induction l with
    | nil => intro dk _ h; simpa using h
    | cons m l ih =>
      intro dk hm h
      rw [List.foldl_cons]
      refine ih _ (fun k hk => hm k (by simp [hk])) ?_
      by_cases hmn : m = n
      · right
        rw [hmn, hd]
        simp only [put_file, if_true]
      · rcases h with h | h
        · exact .inl ((List.mem_cons.1 h).resolve_left fun h => hmn h.symm)
        · right
          cases hf : disk.file (pjoin src m) with
          | none => exact h
          | some e =>
            simp only [put_file]
            rw [if_neg (fun hc => hmn (hm m (by simp) hc.symm)), h]
  exact this l disk hinj (.inl hmem)

section
variable [Zero α]

theorem trueKStep_ok {cNm : List Nat} {k : List α} {disk disk' : Disk α} {p : String} {i : Nat}
    (h : trueKStep cNm k disk (p, i) = .ok disk') :
    ∃ lo hi d d', cNm[i]? = some lo ∧ cNm[i + 1]? = some hi ∧ disk.file p = some d ∧ d.setK (slice k lo hi) = .ok d' ∧ disk' = disk.put p d' := by
  unfold trueKStep at h
  obtain ⟨lo, h1, h⟩ := bind_ok.1 h
  obtain ⟨hi, h2, h⟩ := bind_ok.1 h
  obtain ⟨d, h3, h⟩ := bind_ok.1 h
  obtain ⟨d', h4, h⟩ := bind_ok.1 h
  rw [pure_ok] at h
  exact ⟨lo, hi, d, d', pyGet_ok.1 h1, pyGet_ok.1 h2, openFile_ok.1 h3, h4, h.symm⟩

/-- The loop over the paths: paths not listed are untouched, and the path at each position gets the piece of K of that position. -/
theorem trueK_fold {cNm : List Nat} {k : List α} : ∀ (ps : List String) (s : Nat) (disk disk' : Disk α), ps.Nodup →
    (ps.zipIdx s).foldlM (trueKStep cNm k) disk = .ok disk' →
    (∀ q, q ∉ ps → disk'.file q = disk.file q) ∧
    ∀ (i : Nat) p, ps[i]? = some p → ∃ lo hi d d', cNm[s + i]? = some lo ∧ cNm[s + i + 1]? = some hi ∧ disk.file p = some d ∧
      d.setK (slice k lo hi) = .ok d' ∧ disk'.file p = some d'
  | [], s, disk, disk', _, h => by
    cases h
    exact ⟨fun _ _ => rfl, fun i p hp => by simp at hp⟩
  | p :: ps, s, disk, disk', hn, h => by
    rw [List.zipIdx_cons, List.foldlM_cons] at h
    obtain ⟨d1, hd1, h⟩ := bind_ok.1 h
    obtain ⟨lo, hi, d, d', e1, e2, e3, e4, rfl⟩ := trueKStep_ok hd1
    obtain ⟨i1, i2⟩ := trueK_fold ps (s + 1) _ _ (List.nodup_cons.1 hn).2 h
    have hpn := (List.nodup_cons.1 hn).1
    refine ⟨fun q hq => ?_, fun i q hq => ?_⟩
    · rw [i1 q (fun hc => hq (by simp [hc])), put_file, if_neg (fun hc => hq (by simp [hc]))]
    · cases i with
      | zero =>
        simp only [List.getElem?_cons_zero, Option.some.injEq] at hq
        subst hq
        exact ⟨lo, hi, d, d', e1, e2, e3, e4, by rw [i1 p hpn, put_file, if_pos rfl]⟩
      | succ i =>
        simp only [List.getElem?_cons_succ] at hq
        obtain ⟨lo', hi', e, e', f1, f2, f3, f4, f5⟩ := i2 i q hq
        rw [put_file, if_neg (fun hc : q = p => hpn (hc ▸ List.mem_of_getElem? hq))] at f3
        exact ⟨lo', hi', e, e', by rw [← f1]; congr 1; omega, by rw [← f2]; congr 1; omega, f3, f4, f5⟩

theorem setK_ok {d d' : Dataset α} {k : List α} (h : d.setK k = .ok d') : d.OnlyK d' ∧ (k.length = d.M → vector d.M d'.K = k) := by
  unfold Dataset.setK at h
  obtain ⟨new, hnew, h⟩ := bind_ok.1 h
  rw [pure_ok] at h
  subst h
  refine ⟨rfl, fun hk => ?_⟩
  rw [setSlice_eq (by omega) (by simp [vector]) (by simpa using hk)] at hnew
  simp only [List.take_zero, List.nil_append, Except.ok.injEq] at hnew
  rw [List.drop_eq_nil_of_le (by simp [vector]), List.append_nil] at hnew
  subst hnew
  show vector d.M _ = _
  apply List.ext_getElem
  · simp [vector, hk]
  · intro i h1 h2
    simp [vector, List.getD_eq_getElem?_getD, List.getElem?_eq_getElem h2]

end

/-- One run, taken apart. -/
theorem setTrueK_inv [Zero α] [One α] [Sub α] [DecidableEq α] {env : ReadEnv α δ} {disk disk' : Disk α} {inDir outDir : String}
    {sd : SensorData α (SensorModel α δ) (AdjModel α)} (h : setTrueK env disk inDir sd outDir = .ok disk') :
    ∃ ds ms k, disk.openAll inDir = .ok ds ∧ openMatchUpWithIf env defaultAdjustment ds sd false true = .ok ms ∧ evaluateK ms (.num 0) = .ok k ∧
      (((disk.fs.listDir inDir).map (pjoin inDir)).zipIdx).foldlM (trueKStep ms.mu.idx.cNm k) (disk.copyTree inDir outDir) = .ok disk' := by
  unfold setTrueK at h
  obtain ⟨ds, h1, h⟩ := bind_ok.1 h
  obtain ⟨ms, h2, h⟩ := bind_ok.1 h
  obtain ⟨k, h3, h⟩ := bind_ok.1 h
  simp only [copyTree_fs] at h
  exact ⟨ds, ms, k, h1, h2, h3, h⟩

theorem pjoin_inj {dir a b : String} (h : pjoin dir a = pjoin dir b) : a = b := by
  have h' := congrArg String.toList h
  unfold pjoin at h'
  split at h' <;> simpa [String.toList_append, String.ext_iff] using h'

/-- **C70 is false of the code.** After every successful run the files of the output directory are plain copies of the input files: none has the K of
the sensor models (unless it had it before). -/
theorem C70_output_is_copy [Zero α] [One α] [Sub α] [DecidableEq α] (env : ReadEnv α δ) (disk disk' : Disk α) (inDir outDir : String)
    (sd : SensorData α (SensorModel α δ) (AdjModel α)) (hn : (disk.fs.listDir inDir).Nodup)
    (hdir : ∀ a ∈ disk.fs.listDir inDir, ∀ b ∈ disk.fs.listDir inDir, pjoin outDir a ≠ pjoin inDir b)
    (h : setTrueK env disk inDir sd outDir = .ok disk') :
    ∀ n ∈ disk.fs.listDir inDir, ∃ d, disk.file (pjoin inDir n) = some d ∧ disk'.file (pjoin outDir n) = some d := by
  obtain ⟨ds, ms, k, h1, h2, h3, h⟩ := setTrueK_inv h
  obtain ⟨f1, f2⟩ := trueK_fold _ 0 _ _ (hn.map fun _ _ => pjoin_inj) h
  intro n hmem
  obtain ⟨i, hi⟩ := List.mem_iff_getElem?.1 hmem
  obtain ⟨_, _, d, _, _, _, e3, _, _⟩ := f2 i (pjoin inDir n) (by rw [List.getElem?_map, hi]; rfl)
  rw [copyTree_other _ _ _ _ fun m hm hc => hdir m hm n hmem hc.symm] at e3
  refine ⟨d, e3, ?_⟩
  rw [f1, copyTree_copy disk inDir outDir n d e3 hmem fun m _ hm => pjoin_inj hm]
  intro hc
  obtain ⟨b, hb, hc⟩ := List.mem_map.1 hc
  exact hdir n hmem b hb hc.symm

/-- **C70, where the K go.** After every successful run the *input* files have been overwritten; nothing but K is changed; and the file listed at position
`i` has received the K computed for the file which the reader opened at position `i` (in the order of names), whenever the two have equally many match-ups. -/
theorem C70_input_overwritten [Zero α] [One α] [Sub α] [DecidableEq α] (env : ReadEnv α δ) (he : EnumOk env.enumNat) (he' : EnumOk env.enumStr)
    (disk disk' : Disk α) (inDir outDir : String) (sd : SensorData α (SensorModel α δ) (AdjModel α)) (hsd : (sd.map (·.1)).Nodup)
    (hn : (disk.fs.listDir inDir).Nodup)
    (hdir : ∀ a ∈ disk.fs.listDir inDir, ∀ b ∈ disk.fs.listDir inDir, pjoin outDir a ≠ pjoin inDir b)
    (h : setTrueK env disk inDir sd outDir = .ok disk')
    (ds : List (Dataset α)) (hds : disk.openAll inDir = .ok ds) (hne : ds ≠ []) (hc : ConsistentFiles ds) (ho : OptionalSized ds)
    (hcol : ∀ d ∈ ds, 1 ≤ d.s1.m ∧ 1 ≤ d.s2.m)
    (mu : MatchUp α δ) (hmu : openMatchUpIf env ds false true = .ok mu)
    (y1 y2 a1 a2 : Nat → List α)
    (hy : ∀ (i : Nat) d, ds[i]? = some d → MeasuredBy sd mu (i + 1) d d.s1 (y1 i) ∧ MeasuredBy sd mu (i + 1) d d.s2 (y2 i))
    (hadj : ∀ (i : Nat) d, ds[i]? = some d → AdjustedBy sd d.s1 (y1 i) (a1 i) ∧ AdjustedBy sd d.s2 (y2 i) (a2 i)) :
    ∀ (i : Nat) n, (disk.fs.listDir inDir)[i]? = some n → ∃ d d', disk.file (pjoin inDir n) = some d ∧ disk'.file (pjoin inDir n) = some d' ∧
      d.OnlyK d' ∧ ∃ e, ds[i]? = some e ∧ (e.M = d.M → vector d.M d'.K = List.zipWith (fun second first => second - first) (a2 i) (a1 i)) := by
  obtain ⟨ds', ms, k, h1, h2, h3, h⟩ := setTrueK_inv h
  rw [hds] at h1; cases h1
  obtain ⟨f1, f2⟩ := trueK_fold _ 0 _ _ (hn.map fun _ _ => pjoin_inj) h
  -- the match-up opened in full from the same files with random uncertainties
  obtain ⟨mu0, hmu0, hmu1, _⟩ := C74_opens env he he' hne hc ho
  rw [hmu1] at hmu; cases hmu
  unfold openMatchUpWithIf at h2
  rw [hmu1] at h2
  obtain ⟨mu9, hmu9, h2⟩ := bind_ok.1 h2
  cases hmu9
  obtain ⟨ex, hex, h2⟩ := bind_ok.1 h2
  rw [pure_ok] at h2
  have hW : openMatchUpWith env defaultAdjustment (ds.map Dataset.plainUnc) sd = .ok
      { mu := { mu0 with idx := mu0.idx.withSensorData ex, original_idx := mu0.idx.withSensorData ex }, a := ex.a, constant := ex.constant
        sensor_model := ex.sensor_model, adjustment_model := ex.adjustment_model } := by
    unfold openMatchUpWith
    exact bind_ok.2 ⟨mu0, hmu0, bind_ok.2 ⟨ex, hex, rfl⟩⟩
  have hK := C45_K_difference env (ds.map Dataset.plainUnc) hc.plain (by
      intro d hd
      obtain ⟨d', hd', rfl⟩ := List.mem_map.1 hd
      exact hcol d' hd') sd hsd _ hW (.num 0) ((List.range ds.length).map (· + 1)) (by simp [SelArg.Selects]) (by
      rw [List.pairwise_map]
      exact List.pairwise_lt_range.imp (by omega)) (by
      intro n hn
      obtain ⟨m, hm, rfl⟩ := List.mem_map.1 hn
      simp at hm ⊢
      omega) (fun n => y1 (n - 1)) (fun n => y2 (n - 1)) (fun n => a1 (n - 1)) (fun n => a2 (n - 1)) (by
      intro n hn d hd
      obtain ⟨m, hm, rfl⟩ := List.mem_map.1 hn
      rw [List.getElem?_map] at hd
      obtain ⟨d', hd', rfl⟩ := Option.map_eq_some_iff.1 hd
      exact hy m d' (by simpa using hd')) (by
      intro n hn d hd
      obtain ⟨m, hm, rfl⟩ := List.mem_map.1 hn
      rw [List.getElem?_map] at hd
      obtain ⟨d', hd', rfl⟩ := Option.map_eq_some_iff.1 hd
      exact hadj m d' (by simpa using hd'))
  have hkk : k = ((List.range ds.length).map fun i => List.zipWith (fun second first => second - first) (a2 i) (a1 i)).flatten := by
    have e3 := h3
    rw [← h2] at e3
    have e4 := e3.symm.trans hK
    cases e4
    rw [List.flatMap_map, List.flatMap_def]
    simp
  have hcNm : ms.mu.idx.cNm = prefixSums (ds.map (·.M)) := by
    obtain ⟨x, hx, _, _, _, _, _, _, _, _, _, _, _, hidx, _⟩ := openMatchUp_inv hmu0
    rw [getIdx_plain] at hx
    rw [← h2]
    show mu0.idx.cNm = _
    rw [hidx]
    show x.cNm = _
    unfold getIdx at hx
    obtain ⟨_, _, hx⟩ := bind_ok.1 hx
    obtain ⟨_, _, hx⟩ := bind_ok.1 hx
    obtain ⟨_, _, hx⟩ := bind_ok.1 hx
    rw [pure_ok] at hx
    rw [← hx]
    rfl
  have hlen : ∀ (i : Nat) d, ds[i]? = some d → (List.zipWith (fun second first => second - first) (a2 i) (a1 i)).length = d.M := by
    intro i d hd
    obtain ⟨⟨_, _, _, _, _, _, _, _, _, _, l1⟩, ⟨_, _, _, _, _, _, _, _, _, _, l2⟩⟩ := hy i d hd
    obtain ⟨⟨_, _, q1, _⟩, ⟨_, _, q2, _⟩⟩ := hadj i d hd
    rw [List.length_zipWith, q1, q2, l1, l2, Nat.min_self]
  have hlens : ((List.range ds.length).map fun i => List.zipWith (fun second first => second - first) (a2 i) (a1 i)).map List.length = ds.map (·.M) := by
    apply List.ext_getElem
    · simp
    · intro i g1 g2
      simp only [List.length_map] at g2
      simp only [List.getElem_map, List.getElem_range]
      exact hlen i _ (List.getElem?_eq_getElem g2)
  intro i n hi
  have hmem := List.mem_of_getElem? hi
  obtain ⟨lo, hi', d, d', c1, c2, e3, e4, e5⟩ := f2 i (pjoin inDir n) (by rw [List.getElem?_map, hi]; rfl)
  rw [copyTree_other _ _ _ _ fun m hm hc => hdir m hm n hmem hc.symm] at e3
  rw [hcNm, Nat.zero_add] at c1 c2
  have hlt : i < ds.length := by
    have := (List.getElem?_eq_some_iff.1 c2).1
    rw [prefixSums_length] at this
    simpa using this
  rw [prefixSums_getElem?_of_le _ (by simp; omega)] at c1 c2
  cases c1
  cases c2
  refine ⟨d, d', e3, e5, (setK_ok e4).1, ds[i], List.getElem?_eq_getElem hlt, fun hM => ?_⟩
  have hs := slice_flatten ((List.range ds.length).map fun i => List.zipWith (fun second first => second - first) (a2 i) (a1 i)) (i := i)
    (d := List.zipWith (fun second first => second - first) (a2 i) (a1 i)) (by simp [hlt])
  rw [hlens, ← hkk] at hs
  rw [hs] at e4
  exact (setK_ok e4).2 (by rw [hlen i ds[i] (List.getElem?_eq_getElem hlt), hM])

theorem openAll_sorted (disk : Disk α) (dir : String) (hd : disk.fs.isDir dir = true)
    (hs : ((disk.fs.listDir dir).map (pjoin dir)).Pairwise (· ≤ ·)) (hnc : ∀ n ∈ disk.fs.listDir dir, isNc n = true) :
    disk.openAll dir = ((disk.fs.listDir dir).map (pjoin dir)).mapM disk.openFile := by
  have hf : (disk.fs.listDir dir).filter isNc = disk.fs.listDir dir := List.filter_eq_self.2 hnc
  unfold Disk.openAll resolvePaths
  simp only [hd, if_true, hf]
  rw [List.mergeSort_of_pairwise]
  simpa using hs

theorem mapM_openFile {disk : Disk α} {dir : String} : ∀ {names : List String} {ds : List (Dataset α)},
    names.map (fun n => disk.file (pjoin dir n)) = ds.map some → (names.map (pjoin dir)).mapM disk.openFile = .ok ds
  | [], [], _ => rfl
  | [], _ :: _, h => by simp at h
  | _ :: _, [], h => by simp at h
  | n :: names, d :: ds, h => by
    simp only [List.map_cons, List.cons.injEq] at h
    rw [List.map_cons, List.mapM_cons, openFile_ok.2 h.1]
    show (do let l ← (names.map (pjoin dir)).mapM disk.openFile; pure (d :: l)) = _
    rw [mapM_openFile h.2]
    rfl

/-- **C70 (partial).** When the directory listing happens to be in the order of names and all its files are match-up files, each *input* file receives the K of
the sensor models: the adjusted measurand of its second sensor minus that of its first. Missing: it is the input which is changed, not the output
(`C70_output_is_copy`), and other listings are mixed up (`C70_listing_order_fails`). -/
theorem C70_sorted_partial [Zero α] [One α] [Sub α] [DecidableEq α] (env : ReadEnv α δ) (he : EnumOk env.enumNat) (he' : EnumOk env.enumStr)
    (disk disk' : Disk α) (inDir outDir : String) (sd : SensorData α (SensorModel α δ) (AdjModel α)) (hsd : (sd.map (·.1)).Nodup)
    (hn : (disk.fs.listDir inDir).Nodup) (hd : disk.fs.isDir inDir = true)
    (hs : ((disk.fs.listDir inDir).map (pjoin inDir)).Pairwise (· ≤ ·)) (hnc : ∀ n ∈ disk.fs.listDir inDir, isNc n = true)
    (hdir : ∀ a ∈ disk.fs.listDir inDir, ∀ b ∈ disk.fs.listDir inDir, pjoin outDir a ≠ pjoin inDir b)
    (h : setTrueK env disk inDir sd outDir = .ok disk')
    (ds : List (Dataset α)) (hds : (disk.fs.listDir inDir).map (fun n => disk.file (pjoin inDir n)) = ds.map some) (hne : ds ≠ []) (hc : ConsistentFiles ds)
    (ho : OptionalSized ds) (hcol : ∀ d ∈ ds, 1 ≤ d.s1.m ∧ 1 ≤ d.s2.m)
    (mu : MatchUp α δ) (hmu : openMatchUpIf env ds false true = .ok mu)
    (y1 y2 a1 a2 : Nat → List α)
    (hy : ∀ (i : Nat) d, ds[i]? = some d → MeasuredBy sd mu (i + 1) d d.s1 (y1 i) ∧ MeasuredBy sd mu (i + 1) d d.s2 (y2 i))
    (hadj : ∀ (i : Nat) d, ds[i]? = some d → AdjustedBy sd d.s1 (y1 i) (a1 i) ∧ AdjustedBy sd d.s2 (y2 i) (a2 i)) :
    ∀ (i : Nat) n, (disk.fs.listDir inDir)[i]? = some n → ∃ d d', disk.file (pjoin inDir n) = some d ∧ disk'.file (pjoin inDir n) = some d' ∧
      d.OnlyK d' ∧ vector d.M d'.K = List.zipWith (fun second first => second - first) (a2 i) (a1 i) := by
  have hall : disk.openAll inDir = .ok ds := by
    rw [openAll_sorted disk inDir hd hs hnc]
    exact mapM_openFile hds
  intro i n hi
  obtain ⟨d, d', q1, q2, q3, e, q4, q5⟩ := C70_input_overwritten env he he' disk disk' inDir outDir sd hsd hn hdir h ds hall hne hc ho hcol mu hmu y1 y2 a1 a2
    hy hadj i n hi
  have hg := congrArg (fun l => l[i]?) hds
  simp only [List.getElem?_map, hi, q4, q1, Option.map_some, Option.some.injEq] at hg
  exact ⟨d, d', q1, q2, q3, q5 (by rw [hg])⟩

/-! ### Concrete cases -/
namespace Fixture

/-- Two files of two match-ups each, whose K by the models differ. -/
def kFile1 : Dataset Int := file 2 (side "A" 1 0 1) (side "B" 2 1000 1) []
def kFile2 : Dataset Int := file 2 (side "A" 1 50 1) (side "B" 2 4000 1) []
def kModels : SensorData Int (SensorModel Int Int) (AdjModel Int) :=
  [("A", { parameter := [], constant := [], model := refModel }), ("B", { parameter := [1, 2], constant := [5], model := linModel })]

/-- A disk with the directory `d`, listed in the given order. -/
def kDisk (names : List String) : Disk Int where
  fs := { isDir := fun p => p == "d", isFile := fun p => p == "d/a.nc" || p == "d/b.nc", listDir := fun p => if p = "d" then names else [] }
  file := fun p => if p = "d/a.nc" then some kFile1 else if p = "d/b.nc" then some kFile2 else none

end Fixture

/-- The K in the file at a path. -/
def Disk.kAt (disk : Disk α) (path : String) : Option (List α) := (disk.file path).map fun d => vector d.M d.K

open Fixture in
theorem Fixture.kDisk_open (names : List String) (h : names = ["a.nc", "b.nc"] ∨ names = ["b.nc", "a.nc"]) :
    (kDisk names).openAll "d" = .ok [kFile1, kFile2] := by
  have hs : ((names.filter isNc).map (pjoin "d")).mergeSort (fun a b => decide (a ≤ b)) = ["d/a.nc", "d/b.nc"] := by
    have hp : (((names.filter isNc).map (pjoin "d")).mergeSort (fun a b => decide (a ≤ b))).Perm ["d/a.nc", "d/b.nc"] := by
      refine (List.mergeSort_perm _ _).trans ?_
      rcases h with rfl | rfl
      · exact of_decide_eq_true (by decide +kernel : decide ((["a.nc", "b.nc"].filter isNc).map (pjoin "d") = ["d/a.nc", "d/b.nc"]) = true) ▸ .refl _
      · rw [of_decide_eq_true (by decide +kernel : decide ((["b.nc", "a.nc"].filter isNc).map (pjoin "d") = ["d/b.nc", "d/a.nc"]) = true)]
        exact .swap _ _ _
    refine List.Perm.eq_of_pairwise (le := fun a b : String => a ≤ b) (fun a b _ _ => le_antisymm) ?_ ?_ hp
    · have := List.pairwise_mergeSort (le := fun a b : String => decide (a ≤ b))
        (fun a b c hab hbc => by simp only [decide_eq_true_eq] at *; exact le_trans hab hbc)
        (fun a b => by simp only [Bool.or_eq_true, decide_eq_true_eq]; exact le_total a b)
        ((names.filter isNc).map (pjoin "d"))
      simpa using this
    · have : ("d/a.nc" : String) ≤ "d/b.nc" := of_decide_eq_true (by decide +kernel)
      simp [this]
  unfold Disk.openAll resolvePaths
  simp only [kDisk, if_true, beq_self_eq_true, hs]
  rfl

open Fixture in
/-- **C70 is false of the code for other listings:** with the listing `b.nc, a.nc` (the K of `a.nc` is 7501, 7507) the two input files receive each other's K, and
the output files keep the K they had. -/
theorem C70_listing_order_fails : ∃ disk' : Disk Int, setTrueK env (kDisk ["b.nc", "a.nc"]) "d" kModels "o" = .ok disk' ∧
    disk'.kAt "d/a.nc" = some [28451, 28457] ∧ disk'.kAt "d/b.nc" = some [7501, 7507] ∧
    disk'.kAt "o/a.nc" = some [7, 8] ∧ disk'.kAt "o/b.nc" = some [7, 8] := by
  unfold setTrueK
  rw [kDisk_open _ (.inr rfl)]
  refine ⟨_, rfl, ?_⟩
  decide +kernel

open Fixture in
/-- **C70, a case** with a listing in order. -/
theorem C70_case : ∃ disk' : Disk Int, setTrueK env (kDisk ["a.nc", "b.nc"]) "d" kModels "o" = .ok disk' ∧
    disk'.kAt "d/a.nc" = some [7501, 7507] ∧ disk'.kAt "d/b.nc" = some [28451, 28457] ∧
    disk'.kAt "o/a.nc" = some [7, 8] ∧ disk'.kAt "o/b.nc" = some [7, 8] := by
  unfold setTrueK
  rw [kDisk_open _ (.inl rfl)]
  refine ⟨_, rfl, ?_⟩
  decide +kernel

open Fixture in
example : ConsistentFiles [kFile1, kFile2] ∧ OptionalSized [kFile1, kFile2] ∧ (∀ d ∈ [kFile1, kFile2], 1 ≤ d.s1.m ∧ 1 ≤ d.s2.m) ∧
    (kModels.map (·.1)).Nodup ∧ ((kDisk ["a.nc", "b.nc"]).fs.listDir "d").Nodup ∧
    (∀ a ∈ (kDisk ["a.nc", "b.nc"]).fs.listDir "d", ∀ b ∈ (kDisk ["a.nc", "b.nc"]).fs.listDir "d", pjoin "o" a ≠ pjoin "d" b) := by
  refine ⟨⟨by decide, by decide⟩, ?_, by decide, by decide, by decide, by decide +kernel⟩
  intro d hd e he name v hv
  simp only [List.mem_cons, List.not_mem_nil, or_false] at hd
  rcases hd with rfl | rfl <;> exact absurd hv (by simp [Dataset.var?, kFile1, kFile2, file])

end Verif
