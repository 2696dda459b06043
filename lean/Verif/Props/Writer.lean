import Verif.Spec.Writer
import Verif.Props.ReaderTotal
import Verif.Props.ReaderUnc
import Verif.Props.WFile
/-
Property C69: what is written to match-up files is what the reader finds.
-/
set_option autoImplicit false
namespace Verif
variable {α δ : Type}

theorem putList_ok {β : Type} [Zero β] {m : Nat} {l : List β} (h : l.length = m) : putList m l = .ok fun i => l.getD i 0 := by
  unfold putList; rw [if_pos h]

theorem putArr_ok {a : Arr α} {M m : Nat} (h1 : a.nrows = M) (h2 : a.ncols = m) : a.put M m = .ok a.val := by
  unfold Arr.put
  rw [if_pos ⟨.inl h1, .inl h2⟩]
  simp [h1, h2]

theorem writeSide_ok [Zero α] {s : SideArrays α} {M : Nat} (h : s.Fits M) :
    writeSide M s = .ok { name := s.name, m := s.X.ncols, X := s.X.val, Ur := s.Ur.val, Us := s.Us.val, utype := (fun i => s.utype.getD i 0), wUse := (fun _ => 0), uUse := (fun _ => 0) } := by
  unfold writeSide
  rw [putArr_ok h.X rfl, putArr_ok h.Ur.1 h.Ur.2, putArr_ok h.Us.1 h.Us.2, putList_ok h.utype]
  rfl

theorem range_getD [Zero α] {l : List α} {n : Nat} (h : l.length = n) : ((List.range n).map fun i => l.getD i 0) = l := by
  apply List.ext_getElem
  · simp [h]
  · intro i h1 h2
    simp [List.getD, List.getElem?_eq_getElem h2]

theorem writeAdditional_fold [Zero α] {M m1 m2 : Nat} : ∀ (vs acc : List (String × NcVar α)),
    (∀ v ∈ vs, v.2.dims = ["M"] ∧ v.2.data.length = M ∧ v.1 ∉ writtenNames) → ((acc ++ vs).map (·.1)).Nodup →
    vs.foldlM (writeAdditional M m1 m2) acc = .ok (acc ++ vs)
  | [], acc, _, _ => by simp [pure, Except.pure]
  | v :: vs, acc, h, hn => by
    obtain ⟨h1, h2, h3⟩ := h v (by simp)
    have hv : v.1 ∉ acc.map (·.1) := by
      intro hx
      rw [List.map_append, List.map_cons, List.nodup_append] at hn
      exact hn.2.2 _ hx _ (by simp) rfl
    have e : writeAdditional M m1 m2 acc v = .ok (acc ++ [v]) := by
      unfold writeAdditional
      rw [if_neg (by rintro (hx | hx); exact h3 hx; exact hv hx), h1]
      have e1 : (["M"] : List String).mapM (dimSize M m1 m2) = .ok [M] := rfl
      rw [e1]
      have e2 : putList M v.2.data = .ok fun i => v.2.data.getD i 0 := putList_ok h2
      simp only [bind, Except.bind, List.prod_cons, List.prod_nil, mul_one, e2, pure, Except.pure]
      rw [range_getD h2]
    rw [List.foldlM_cons, e]
    simp only [bind, Except.bind]
    rw [writeAdditional_fold vs (acc ++ [v]) (fun w hw => h w (by simp [hw])) (by simpa using hn)]
    simp

/-- The file written for arrays that fit. -/
def FileArrays.asDataset [Zero α] (f : FileArrays α) : Dataset α :=
  { M := f.s1.X.nrows
    s1 := { name := f.s1.name, m := f.s1.X.ncols, X := f.s1.X.val, Ur := f.s1.Ur.val, Us := f.s1.Us.val, utype := (fun i => f.s1.utype.getD i 0), wUse := (fun _ => 0), uUse := (fun _ => 0) }
    s2 := { name := f.s2.name, m := f.s2.X.ncols, X := f.s2.X.val, Ur := f.s2.Ur.val, Us := f.s2.Us.val, utype := (fun i => f.s2.utype.getD i 0), wUse := (fun _ => 0), uUse := (fun _ => 0) }
    K := (fun i => f.K.getD i 0)
    Kr := (fun i => f.Kr.getD i 0)
    Ks := (fun i => f.Ks.getD i 0)
    time1 := (fun i => f.time1.getD i 0)
    time2 := (fun i => f.time2.getD i 0)
    hasUse := false
    vars := f.additional
    wNnz := []
    wVal := []
    wCol := []
    wRow := []
    uCount := []
    uVal := [] }

theorem writeInputFile_ok [Zero α] {f : FileArrays α} (h : f.Fits) : writeInputFile f = .ok f.asDataset := by
  unfold writeInputFile
  simp only [bind, Except.bind, writeSide_ok h.s1, writeSide_ok h.s2, putList_ok h.K.1, putList_ok h.K.2.1, putList_ok h.K.2.2, putList_ok h.time.1, putList_ok h.time.2,
    writeAdditional_fold f.additional [] h.additional (by simpa using h.names)]
  rfl

/-- What the object holds for a sensor of a file, from the theorems about the reader. -/
theorem holds_side [Zero α] [DecidableEq α] {env : ReadEnv α δ} (he : EnumOk env.enumNat) {ds : List (Dataset α)} (hc : ConsistentFiles ds) {mu : MatchUp α δ} (h : openMatchUp env ds = .ok mu)
    {i : Nat} {d : Dataset α} (hd : ds[i]? = some d) {s : Side α} (hs : s = d.s1 ∨ s = d.s2) {a : SideArrays α} (hf : a.Fits d.M) (hn : s.name = a.name) (hm : s.m = a.X.ncols)
    (hX : s.X = a.X.val) (hUr : s.Ur = a.Ur.val) (hUs : s.Us = a.Us.val) (ht : s.utype = fun i => a.utype.getD i 0) : mu.Holds i a := by
  refine ⟨fun c hlt => ?_, fun c hlt => ?_⟩
  · refine C03_getVariableData env ds hc mu h _ _ _ _ ⟨d, s, by omega, by simpa using hd, hs, hn, by omega, by omega, ?_⟩
    rw [hX]
    simp [Arr.col, hf.X]
  · obtain ⟨keys, b, u, h1, h2, h3, h4⟩ := C10_declared_uncertainty env he ds hc mu h i d hd s hs c (by omega)
    refine ⟨keys, b, u, h1, by rw [h2, hn], h3, fun ht1 => ?_, fun ht2 => ?_⟩
    · have : s.utype c = 1 := by rw [ht]; simp [List.getD, ht1]
      rcases h4 with h4 | h4 | ⟨_, _, _, _, _, _, _, _, _, h4 | h4⟩
      · rw [h4.2, hUr]
        simp [Arr.col, column, hf.Ur.1]
      all_goals exact absurd h4.1 (by omega)
    · have : s.utype c = 2 := by rw [ht]; simp [List.getD, ht2]
      rcases h4 with h4 | h4 | ⟨_, _, _, _, _, _, _, _, _, h4 | h4⟩
      · exact absurd h4.1 (by omega)
      · rw [h4.2, hUr, hUs]
        simp [Arr.col, column, hf.Ur.1, hf.Us.1]
      all_goals exact absurd h4.1 (by omega)

theorem consistent_of [Zero α] {fs : List (FileArrays α)} (hc : ConsistentArrays fs) : ConsistentFiles (fs.map FileArrays.asDataset) := by
  refine ⟨?_, ?_⟩
  · intro d hd
    obtain ⟨f, hf, rfl⟩ := List.mem_map.1 hd
    exact hc.1 f hf
  · intro d hd e he s hs t ht hn
    obtain ⟨f, hf, rfl⟩ := List.mem_map.1 hd
    obtain ⟨g, hg, rfl⟩ := List.mem_map.1 he
    simp only [FileArrays.asDataset, List.mem_cons, List.not_mem_nil, or_false] at hs ht
    have key := hc.2 f hf g hg
    simp only [List.mem_cons, List.not_mem_nil, or_false, forall_eq_or_imp, forall_eq] at key
    rcases hs with rfl | rfl <;> rcases ht with rfl | rfl
    · exact key.1.1 hn
    · exact key.1.2 hn
    · exact key.2.1 hn
    · exact key.2.2 hn

theorem find_nodup {β : Type} : ∀ {l : List (String × β)} {n : String} {v : β}, (l.map (·.1)).Nodup → (n, v) ∈ l → (l.find? (fun w => w.1 == n)).map (·.2) = some v
  | [], _, _, _, h => by simp at h
  | w :: l, n, v, hn, h => by
    rw [List.map_cons, List.nodup_cons] at hn
    rcases List.mem_cons.1 h with rfl | h
    · simp
    · have : w.1 ≠ n := by rintro rfl; exact hn.1 (List.mem_map.2 ⟨_, h, rfl⟩)
      rw [List.find?_cons_of_neg (by simpa using this)]
      exact find_nodup hn.2 h

/-- **C69.** Files written from arrays that fit together, with random and systematic uncertainties only, can be opened, and the match-up object holds
for every file its values, uncertainties, K, times and additional variables. -/
theorem C69_roundtrip [Zero α] [DecidableEq α] (env : ReadEnv α δ) (he : EnumOk env.enumNat) (he' : EnumOk env.enumStr) {fs : List (FileArrays α)} (hne : fs ≠ []) (hf : ∀ f ∈ fs, f.Fits)
    (hc : ConsistentArrays fs) (ht : ∀ f ∈ fs, ∀ t ∈ f.s1.utype ++ f.s2.utype, t = 1 ∨ t = 2) :
    ∃ ds mu, fs.mapM writeInputFile = .ok ds ∧ openMatchUp env ds = .ok mu ∧ ∀ (i : Nat) (f : FileArrays α), fs[i]? = some f →
      mu.Holds i f.s1 ∧ mu.Holds i f.s2 ∧
      (∃ lo hi, mu.idx.cNm[i]? = some lo ∧ mu.idx.cNm[i + 1]? = some hi ∧ slice mu.ks lo hi = f.K) ∧
      mu.unck[i]? = some (List.zipWith env.rss f.Kr f.Ks) ∧
      mu.getSensorTime (i + 1) f.s1.name = .ok (some (f.time1.map env.toDate)) ∧
      mu.getSensorTime (i + 1) f.s2.name = .ok (some (f.time2.map env.toDate)) ∧
      ∀ (name : String) (v : NcVar α), (name, v) ∈ f.additional → name ∉ standardVariableNames → env.fill ∉ v.data → mu.getAdditionalData name (some (i + 1)) = .ok v.data := by
  have hw : fs.mapM writeInputFile = .ok (fs.map FileArrays.asDataset) := mapM_ok_of fun f hm => writeInputFile_ok (hf f hm)
  have hcd := consistent_of hc
  have hvar : ∀ f ∈ fs, ∀ (n : String) (v : NcVar α), f.asDataset.var? n = some v → (n, v) ∈ f.additional := by
    intro f _ n v hv
    unfold Dataset.var? at hv
    obtain ⟨w, hw, rfl⟩ := Option.map_eq_some_iff.1 hv
    have h1 := List.find?_some hw
    have h2 := List.mem_of_find?_eq_some hw
    simp only [beq_iff_eq] at h1
    subst h1
    exact h2
  obtain ⟨mu, hmu⟩ := C67_opens env he he' (ds := fs.map FileArrays.asDataset) (by simpa using hne) hcd (by
    intro d hd e _ n v hv _
    obtain ⟨f, hfm, rfl⟩ := List.mem_map.1 hd
    exact ((hf f hfm).additional _ (hvar f hfm n v hv)).2.1) (by
    intro d hd s hs c hlt
    obtain ⟨f, hfm, rfl⟩ := List.mem_map.1 hd
    have key : ∀ (l : List Nat), l.length > c → (∀ t ∈ l, t = 1 ∨ t = 2) → l.getD c 0 = 1 ∨ l.getD c 0 = 2 := by
      intro l hl h
      rw [List.getD, List.getElem?_eq_getElem hl]
      exact h _ (List.getElem_mem _)
    rcases hs with rfl | rfl
    · rcases key f.s1.utype (by rw [(hf f hfm).s1.utype]; exact hlt) (fun t h => ht f hfm t (by simp [h])) with h | h
      · exact .inl h
      · exact .inr (.inl h)
    · rcases key f.s2.utype (by rw [(hf f hfm).s2.utype]; exact hlt) (fun t h => ht f hfm t (by simp [h])) with h | h
      · exact .inl h
      · exact .inr (.inl h))
  refine ⟨_, mu, hw, hmu, fun i f hi => ?_⟩
  have hfm := List.mem_of_getElem? hi
  have F := hf f hfm
  have hd : (fs.map FileArrays.asDataset)[i]? = some f.asDataset := by simp [hi]
  obtain ⟨_, _, h5⟩ := C05_series_data env _ mu hmu
  obtain ⟨lo, hi', a1, a2, a3, a4, a5, a6, a7⟩ := h5 i _ hd
  have gK : ((List.range f.s1.X.nrows).map fun i => f.K.getD i 0) = f.K := range_getD F.K.1
  refine ⟨holds_side he hcd hmu hd (.inl rfl) F.s1 rfl rfl rfl rfl rfl rfl, holds_side he hcd hmu hd (.inr rfl) F.s2 rfl rfl rfl rfl rfl rfl,
    ⟨lo, hi', a1, a2, by rw [a4]; exact gK⟩, ?_, ?_, ?_, ?_⟩
  · rw [a5]
    congr 1
    apply List.ext_getElem
    · simp [FileArrays.asDataset, F.K.2.1, F.K.2.2]
    · intro r h1 h2
      have l1 := F.K.2.1
      have l2 := F.K.2.2
      simp only [List.length_zipWith] at h2
      simp [FileArrays.asDataset, List.getD, List.getElem?_eq_getElem (show r < f.Kr.length by omega), List.getElem?_eq_getElem (show r < f.Ks.length by omega)]
  · have := a6
    rw [show f.s1.name = f.asDataset.s1.name from rfl, a6]
    congr 2
    conv_rhs => rw [← range_getD F.time.1]
    rw [List.map_map]; rfl
  · rw [show f.s2.name = f.asDataset.s2.name from rfl, a7 (hc.1 f hfm)]
    congr 2
    conv_rhs => rw [← range_getD F.time.2]
    rw [List.map_map]; rfl
  · intro n v hv hns hfill
    obtain ⟨names, n1, n2, n3⟩ := C07_names env he' _ mu hmu
    have hmem : n ∈ names := (n3 n).2 ⟨hns, _, List.mem_of_getElem? hd, v, hv, (F.additional _ hv).1⟩
    obtain ⟨_, h7⟩ := C07_values env he' _ mu hmu (by
      intro n d hd v hv
      obtain ⟨g, hgm, rfl⟩ := List.mem_map.1 hd
      exact ((hf g hgm).additional _ (hvar g hgm n v hv)).2.1) names n1 n hmem
    rw [h7 i _ hd]
    have : f.asDataset.var? n = some v := find_nodup F.names hv
    unfold additionalData
    rw [this]
    congr 1
    simp only
    conv_rhs => rw [← List.map_id v.data]
    apply List.map_congr_left
    intro y hy
    rw [if_neg (by rintro rfl; exact hfill hy)]
    rfl

/-! ### Matrices -/

/-- Files with matrices: the numbers of W matrices and u vectors exist where the type calls for them. -/
structure FileArrays.FitsMatrices (f : FileArrays α) (ws : List (CSR α)) (us : List (List α)) : Prop where
  fits : f.Fits
  some : ws ≠ []
  w : ∀ w ∈ ws, w.WellFormed ∧ w.nrows = f.s1.X.nrows ∧ w.data ≠ []
  uses : ∀ s ∈ [f.s1, f.s2], s.wUse.length = s.X.ncols ∧ s.uUse.length = s.X.ncols
  types : ∀ s ∈ [f.s1, f.s2], ∀ (c t w u : Nat), s.utype[c]? = .some t → s.wUse[c]? = .some w → s.uUse[c]? = .some u →
    t = 1 ∨ t = 2 ∨ ((t = 3 ∨ t = 4 ∧ 2 ≤ f.s1.X.nrows) ∧ 1 ≤ w ∧ w ≤ ws.length ∧ 1 ≤ u ∧ u ≤ us.length)

/-- The match-up object refers, for the structured columns of sensor `s` in series `i`, to the matrices given (a matrix is read with as many columns as
are in use), and with type 4 has the systematic uncertainty of the second match-up. -/
def MatchUp.HoldsMatrices [DecidableEq α] (mu : MatchUp α δ) (i : Nat) (s : SideArrays α) (ws : List (CSR α)) (us : List (List α)) : Prop :=
  ∀ c w u, s.utype[c]? = some 3 ∨ s.utype[c]? = some 4 → s.wUse[c]? = some w → s.uUse[c]? = some u →
    ∃ (keys : List (String × Nat × Nat)) (b wi ui mx : Nat) (ub : UncBlock α) (W : CSR α) (U : List α), mu.idx.nameBlocks = .ok keys ∧ keys[b]? = some (s.name, i + 1, c + 1) ∧
      mu.unc[b]? = some ub ∧ ws[w - 1]? = some W ∧ us[u - 1]? = some U ∧ mx ∈ W.indices ∧ (∀ c' ∈ W.indices, c' ≤ mx) ∧
      mu.w_matrices[wi]? = some (some { W with ncols := mx + 1 }) ∧ mu.u_matrices[ui]? = some (some U) ∧
      (s.utype[c]? = some 3 → ub.unc = .structured wi ui) ∧ (s.utype[c]? = some 4 → ub.unc = .structuredSystematic wi ui (s.Us.val 1 c))

/-- The file written with matrices. -/
def FileArrays.withMatrices [Zero α] (f : FileArrays α) (v : WVars α) : Dataset α :=
  { f.asDataset with
    s1 := { f.asDataset.s1 with wUse := (fun i => f.s1.wUse.getD i 0), uUse := (fun i => f.s1.uUse.getD i 0) }
    s2 := { f.asDataset.s2 with wUse := (fun i => f.s2.wUse.getD i 0), uUse := (fun i => f.s2.uUse.getD i 0) }
    hasUse := true }.withW v

theorem writeWithMatrices_ok [Zero α] {f : FileArrays α} {ws : List (CSR α)} {us : List (List α)} (h : f.FitsMatrices ws us) :
    ∃ v, writeWithMatrices f ws us = .ok (f.withMatrices v) ∧ ∀ d : Dataset α,
      (∀ (k : Nat) (w : CSR α), ws[k]? = some w → ∃ c, c ∈ w.indices ∧ (∀ c' ∈ w.indices, c' ≤ c) ∧ openW (d.withW v) (k + 1) = .ok { w with ncols := c + 1 }) ∧
      (∀ (k : Nat) (u : List α), us[k]? = some u → openU (d.withW v) (k + 1) = .ok u) := by
  obtain ⟨v, hv, hd⟩ := C09_w_u_roundtrip ws us f.s1.X.nrows h.some h.w
  refine ⟨v, ?_, hd⟩
  have u1 := h.uses f.s1 (by simp)
  have u2 := h.uses f.s2 (by simp)
  refine bind_ok.2 ⟨_, writeInputFile_ok h.fits, bind_ok.2 ⟨_, hv, ?_⟩⟩
  have e1 : putList f.asDataset.s1.m f.s1.wUse = .ok fun i => f.s1.wUse.getD i 0 := putList_ok u1.1
  have e2 : putList f.asDataset.s2.m f.s2.wUse = .ok fun i => f.s2.wUse.getD i 0 := putList_ok u2.1
  have e3 : putList f.asDataset.s1.m f.s1.uUse = .ok fun i => f.s1.uUse.getD i 0 := putList_ok u1.2
  have e4 : putList f.asDataset.s2.m f.s2.uUse = .ok fun i => f.s2.uUse.getD i 0 := putList_ok u2.2
  unfold appendW
  rw [if_neg (by simp [FileArrays.asDataset]), e1, e2, e3, e4]
  rfl

theorem getD_of {l : List Nat} {c x : Nat} (h : l[c]? = some x) : l.getD c 0 = x := by simp [List.getD, h]

theorem holds_matrices [Zero α] [DecidableEq α] {env : ReadEnv α δ} (he : EnumOk env.enumNat) {ds : List (Dataset α)} (hc : ConsistentFiles ds) {mu : MatchUp α δ} (h : openMatchUp env ds = .ok mu)
    {i : Nat} {d : Dataset α} (hd : ds[i]? = some d) {s : Side α} (hs : s = d.s1 ∨ s = d.s2) {a : SideArrays α} {ws : List (CSR α)} {us : List (List α)} (hn : s.name = a.name)
    (hm : s.m = a.utype.length) (hUs : s.Us = a.Us.val) (ht : s.utype = fun i => a.utype.getD i 0) (hwu : s.wUse = fun i => a.wUse.getD i 0) (huu : s.uUse = fun i => a.uUse.getD i 0)
    (hr : ∀ (c t w u : Nat), a.utype[c]? = some t → a.wUse[c]? = some w → a.uUse[c]? = some u →
      t = 1 ∨ t = 2 ∨ ((t = 3 ∨ t = 4 ∧ 2 ≤ d.M) ∧ 1 ≤ w ∧ w ≤ ws.length ∧ 1 ≤ u ∧ u ≤ us.length))
    (ho : (∀ (k : Nat) (w : CSR α), ws[k]? = some w → ∃ c, c ∈ w.indices ∧ (∀ c' ∈ w.indices, c' ≤ c) ∧ openW d (k + 1) = .ok { w with ncols := c + 1 }) ∧
      (∀ (k : Nat) (u : List α), us[k]? = some u → openU d (k + 1) = .ok u)) : mu.HoldsMatrices i a ws us := by
  intro c w u htc hwc huc
  have hlt : c < s.m := by
    rw [hm]
    rcases htc with h | h <;> exact (List.getElem?_eq_some_iff.1 h).1
  obtain ⟨keys, b, ub, h1, h2, h3, h4⟩ := C10_declared_uncertainty env he ds hc mu h i d hd s hs c hlt
  have htv : s.utype c = 3 ∨ s.utype c = 4 := by
    rw [ht]
    rcases htc with h | h
    · exact .inl (getD_of h)
    · exact .inr (getD_of h)
  obtain ⟨r1, r2, r3, r4⟩ : 1 ≤ w ∧ w ≤ ws.length ∧ 1 ≤ u ∧ u ≤ us.length := by
    rcases htc with h | h
    · rcases hr c 3 w u h hwc huc with h | h | ⟨_, h⟩
      · omega
      · omega
      · exact h
    · rcases hr c 4 w u h hwc huc with h | h | ⟨_, h⟩
      · omega
      · omega
      · exact h
  have ew : s.wUse c = w := by rw [hwu]; exact getD_of hwc
  have eu : s.uUse c = u := by rw [huu]; exact getD_of huc
  rcases h4 with h4 | h4 | ⟨wi, ui, W, U, _, q1, q2, q3, q4, q5⟩
  · omega
  · omega
  obtain ⟨W0, hW0⟩ : ∃ W0, ws[w - 1]? = some W0 := ⟨_, List.getElem?_eq_getElem (by omega)⟩
  obtain ⟨U0, hU0⟩ : ∃ U0, us[u - 1]? = some U0 := ⟨_, List.getElem?_eq_getElem (by omega)⟩
  obtain ⟨mx, m1, m2, m3⟩ := ho.1 _ _ hW0
  have m4 := ho.2 _ _ hU0
  rw [show w - 1 + 1 = w by omega, ← ew, q2] at m3
  rw [show u - 1 + 1 = u by omega, ← eu, q4] at m4
  cases m3
  cases m4
  refine ⟨keys, b, wi, ui, mx, ub, W0, U, h1, by rw [h2, hn], h3, hW0, hU0, m1, m2, q1, q3, fun t3 => ?_, fun t4 => ?_⟩
  · rcases q5 with q5 | q5
    · exact q5.2
    · have : s.utype c = 3 := by rw [ht]; exact getD_of t3
      omega
  · rcases q5 with q5 | q5
    · have : s.utype c = 4 := by rw [ht]; exact getD_of t4
      omega
    · rw [q5.2.2, hUs]

/-- **C69**, files with W matrices, made by writing the arrays and appending the matrices: they can be opened, and every structured column refers to its own matrix and vector. -/
theorem C69_matrices [Zero α] [DecidableEq α] (env : ReadEnv α δ) (he : EnumOk env.enumNat) (he' : EnumOk env.enumStr) {fs : List (FileArrays α × List (CSR α) × List (List α))} (hne : fs ≠ [])
    (hf : ∀ f ∈ fs, f.1.FitsMatrices f.2.1 f.2.2) (hc : ConsistentArrays (fs.map (·.1))) :
    ∃ ds mu, (fs.mapM fun f => writeWithMatrices f.1 f.2.1 f.2.2) = .ok ds ∧ openMatchUp env ds = .ok mu ∧ ∀ (i : Nat) (f : FileArrays α × List (CSR α) × List (List α)), fs[i]? = some f →
      mu.Holds i f.1.s1 ∧ mu.Holds i f.1.s2 ∧ mu.HoldsMatrices i f.1.s1 f.2.1 f.2.2 ∧ mu.HoldsMatrices i f.1.s2 f.2.1 f.2.2 := by
  classical
  choose v hv using fun f : { f // f ∈ fs } => writeWithMatrices_ok (hf f.1 f.2)
  let D : FileArrays α × List (CSR α) × List (List α) → Dataset α := fun f => if h : f ∈ fs then f.1.withMatrices (v ⟨f, h⟩) else f.1.asDataset
  have hD : ∀ f (h : f ∈ fs), D f = f.1.withMatrices (v ⟨f, h⟩) := fun f h => dif_pos h
  have hw : (fs.mapM fun f => writeWithMatrices f.1 f.2.1 f.2.2) = .ok (fs.map D) := mapM_ok_of fun f hm => by rw [hD f hm]; exact (hv ⟨f, hm⟩).1
  have hcd : ConsistentFiles (fs.map D) := by
    refine ⟨?_, ?_⟩
    · intro d hd
      obtain ⟨f, hfm, rfl⟩ := List.mem_map.1 hd
      rw [hD f hfm]
      exact hc.1 f.1 (List.mem_map.2 ⟨f, hfm, rfl⟩)
    · intro d hd e he s hs t ht hn
      obtain ⟨f, hfm, rfl⟩ := List.mem_map.1 hd
      obtain ⟨g, hgm, rfl⟩ := List.mem_map.1 he
      rw [hD f hfm] at hs
      rw [hD g hgm] at ht
      simp only [FileArrays.withMatrices, Dataset.withW, FileArrays.asDataset, List.mem_cons, List.not_mem_nil, or_false] at hs ht
      have key := hc.2 f.1 (List.mem_map.2 ⟨f, hfm, rfl⟩) g.1 (List.mem_map.2 ⟨g, hgm, rfl⟩)
      simp only [List.mem_cons, List.not_mem_nil, or_false, forall_eq_or_imp, forall_eq] at key
      rcases hs with rfl | rfl <;> rcases ht with rfl | rfl
      · exact key.1.1 hn
      · exact key.1.2 hn
      · exact key.2.1 hn
      · exact key.2.2 hn
  have hread : ∀ f (hm : f ∈ fs) (s : Side α) (a : SideArrays α), a ∈ [f.1.s1, f.1.s2] → a.Fits f.1.s1.X.nrows → s.m = a.X.ncols → (s.utype = fun i => a.utype.getD i 0) → (s.wUse = fun i => a.wUse.getD i 0) → (s.uUse = fun i => a.uUse.getD i 0) →
      ∀ c, c < s.m → (f.1.withMatrices (v ⟨f, hm⟩)).ReadableColumn s c := by
    intro f hm s a ha hfit h1 h2 h3 h4 c hlt
    have F := hf f hm
    obtain ⟨l1, l2⟩ := F.uses a ha
    have l3 := hfit.utype
    have g1 : a.utype[c]? = some a.utype[c] := List.getElem?_eq_getElem (by omega)
    have g2 : a.wUse[c]? = some a.wUse[c] := List.getElem?_eq_getElem (by omega)
    have g3 : a.uUse[c]? = some a.uUse[c] := List.getElem?_eq_getElem (by omega)
    have e1 : s.utype c = a.utype[c] := by rw [h2]; exact getD_of g1
    have e2 : s.wUse c = a.wUse[c] := by rw [h3]; exact getD_of g2
    have e3 : s.uUse c = a.uUse[c] := by rw [h4]; exact getD_of g3
    have T := F.types a ha c _ _ _ g1 g2 g3
    rw [← e1, ← e2, ← e3] at T
    rcases T with T | T | ⟨T, t1, t2, t3, t4⟩
    · exact .inl T
    · exact .inr (.inl T)
    · obtain ⟨o1, o2⟩ := (hv ⟨f, hm⟩).2 ({ f.1.asDataset with
        s1 := { f.1.asDataset.s1 with wUse := (fun i => f.1.s1.wUse.getD i 0), uUse := (fun i => f.1.s1.uUse.getD i 0) }
        s2 := { f.1.asDataset.s2 with wUse := (fun i => f.1.s2.wUse.getD i 0), uUse := (fun i => f.1.s2.uUse.getD i 0) }
        hasUse := true })
      obtain ⟨_, _, _, p1⟩ := o1 (s.wUse c - 1) _ (List.getElem?_eq_getElem (by show s.wUse c - 1 < f.2.1.length; omega))
      have p2 := o2 (s.uUse c - 1) _ (List.getElem?_eq_getElem (by show s.uUse c - 1 < f.2.2.length; omega))
      rw [show s.wUse c - 1 + 1 = s.wUse c by omega] at p1
      rw [show s.uUse c - 1 + 1 = s.uUse c by omega] at p2
      exact .inr (.inr ⟨T, rfl, by omega, by omega, ⟨_, p1⟩, ⟨_, p2⟩⟩)
  obtain ⟨mu, hmu⟩ := C67_opens env he he' (ds := fs.map D) (by simpa using hne) hcd (by
    intro d hd e _ n w hw' _
    obtain ⟨f, hfm, rfl⟩ := List.mem_map.1 hd
    rw [hD f hfm] at hw' ⊢
    unfold Dataset.var? at hw'
    obtain ⟨x, hx, rfl⟩ := Option.map_eq_some_iff.1 hw'
    exact ((hf f hfm).fits.additional _ (List.mem_of_find?_eq_some hx)).2.1) (by
    intro d hd s hs c hlt
    obtain ⟨f, hfm, rfl⟩ := List.mem_map.1 hd
    rw [hD f hfm] at hs ⊢
    rcases hs with rfl | rfl
    · exact hread f hfm _ f.1.s1 (by simp) (hf f hfm).fits.s1 rfl rfl rfl rfl c hlt
    · exact hread f hfm _ f.1.s2 (by simp) (hf f hfm).fits.s2 rfl rfl rfl rfl c hlt)
  refine ⟨_, mu, hw, hmu, fun i f hi => ?_⟩
  have hfm := List.mem_of_getElem? hi
  have F := hf f hfm
  have hd : (fs.map D)[i]? = some (f.1.withMatrices (v ⟨f, hfm⟩)) := by rw [List.getElem?_map, hi, Option.map_some, hD f hfm]
  refine ⟨holds_side he hcd hmu hd (.inl rfl) F.fits.s1 rfl rfl rfl rfl rfl rfl, holds_side he hcd hmu hd (.inr rfl) F.fits.s2 rfl rfl rfl rfl rfl rfl,
    holds_matrices he hcd hmu hd (.inl rfl) rfl F.fits.s1.utype.symm rfl rfl rfl rfl (F.types f.1.s1 (by simp)) ((hv ⟨f, hfm⟩).2 _),
    holds_matrices he hcd hmu hd (.inr rfl) rfl F.fits.s2.utype.symm rfl rfl rfl rfl (F.types f.1.s2 (by simp)) ((hv ⟨f, hfm⟩).2 _)⟩

/-! ### `MatchUpWriter` -/

/-- `MatchUpWriter.write_input_file` forgets the W matrix variables it is given: a file with a structured column that it wrote never opens, whatever was passed. -/
theorem C69_writer_drops_matrices [Zero α] [DecidableEq α] (env : ReadEnv α δ) (he : EnumOk env.enumNat) {f : FileArrays α} (hf : f.Fits) (hn : f.s1.name ≠ f.s2.name)
    {w : Option (WVars α × List Nat × List Nat × List Nat × List Nat)} {t : Nat} (ht : t ∈ f.s1.utype ++ f.s2.utype) (h34 : t = 3 ∨ t = 4) :
    ∃ d, matchUpWriterFile f w = .ok d ∧ ∀ mu : MatchUp α δ, openMatchUp env [d] ≠ .ok mu := by
  refine ⟨f.asDataset, writeInputFile_ok hf, fun mu hmu => ?_⟩
  by_cases hcs : ConsistentFiles [f.asDataset]
  swap
  · refine hcs ⟨fun d hd => by rw [List.mem_singleton.1 hd]; exact hn, ?_⟩
    intro d hd e he s hs t ht hst
    simp only [List.mem_singleton] at hd he
    subst hd he
    simp only [FileArrays.asDataset, List.mem_cons, List.not_mem_nil, or_false] at hs ht
    rcases hs with rfl | rfl <;> rcases ht with rfl | rfl
    · rfl
    · exact absurd hst hn
    · exact absurd hst.symm hn
    · rfl
  obtain ⟨s, hs, c, hlt, htc⟩ : ∃ s, (s = f.asDataset.s1 ∨ s = f.asDataset.s2) ∧ ∃ c, c < s.m ∧ (s.utype c = 3 ∨ s.utype c = 4) := by
    rcases List.mem_append.1 ht with h | h
    · obtain ⟨c, hlt, hc⟩ := List.mem_iff_getElem.1 h
      refine ⟨_, .inl rfl, c, by show c < f.s1.X.ncols; rw [← hf.s1.utype]; exact hlt, ?_⟩
      show f.s1.utype.getD c 0 = 3 ∨ f.s1.utype.getD c 0 = 4
      rw [getD_of (List.getElem?_eq_getElem hlt), hc]; exact h34
    · obtain ⟨c, hlt, hc⟩ := List.mem_iff_getElem.1 h
      refine ⟨_, .inr rfl, c, by show c < f.s2.X.ncols; rw [← hf.s2.utype]; exact hlt, ?_⟩
      show f.s2.utype.getD c 0 = 3 ∨ f.s2.utype.getD c 0 = 4
      rw [getD_of (List.getElem?_eq_getElem hlt), hc]; exact h34
  obtain ⟨_, _, _, _, _, _, h4⟩ := C10_declared_uncertainty env he _ hcs mu hmu 0 _ rfl s hs c hlt
  rcases h4 with h4 | h4 | ⟨_, _, _, _, hu, _⟩
  · omega
  · omega
  · exact absurd hu (by simp [FileArrays.asDataset])

/-- `MatchUpWriter.writeMatchUp` writes no file. -/
theorem C69_writer_writes_nothing {μ : Type} (fs : List (String × Dataset α)) (mu : μ) (path : String) : writeMatchUp fs mu path = fs := rfl

/-! ### A concrete case -/

namespace Fixture

/-- Arrays of two match-ups, sensor A with one covariate, sensor B with two; the types of B's columns are given. -/
def arrays (x : Int) (t : List Nat) (w u : List Nat) : FileArrays Int where
  s1 := { name := "A", X := ⟨2, 1, fun r _ => x + r⟩, Ur := ⟨2, 1, fun _ _ => 1⟩, Us := ⟨2, 1, fun _ _ => 0⟩, utype := [1], wUse := [0], uUse := [0] }
  s2 := { name := "B", X := ⟨2, 2, fun r c => x + 10 * r + 100 * c⟩, Ur := ⟨2, 2, fun _ _ => 2⟩, Us := ⟨2, 2, fun _ c => c⟩, utype := t, wUse := w, uUse := u }
  K := [1, 2]
  Kr := [3, 4]
  Ks := [0, 1]
  time1 := [5, 6]
  time2 := [7, 8]
  additional := [("extra", ⟨["M"], [x, 9]⟩), ("along_track_index1", ⟨["M"], [1, 2]⟩)]

theorem arrays_fit (x : Int) {t : List Nat} (w u : List Nat) (ht : t.length = 2) : (arrays x t w u).Fits := by
  refine ⟨⟨rfl, ⟨rfl, rfl⟩, ⟨rfl, rfl⟩, rfl⟩, ⟨rfl, ⟨rfl, rfl⟩, ⟨rfl, rfl⟩, ht⟩, ⟨rfl, rfl, rfl⟩, ⟨rfl, rfl⟩, ?_, ?_⟩
  · intro v hv
    simp only [arrays, List.mem_cons, List.not_mem_nil, or_false] at hv
    rcases hv with rfl | rfl
    · exact ⟨rfl, rfl, (by decide +kernel : ("extra" : String) ∉ writtenNames)⟩
    · exact ⟨rfl, rfl, by decide +kernel⟩
  · show (["extra", "along_track_index1"] : List String).Nodup
    decide +kernel

theorem arrays_consistent {fs : List (FileArrays Int)} (h : ∀ f ∈ fs, ∃ x t w u, f = arrays x t w u) : ConsistentArrays fs := by
  refine ⟨?_, ?_⟩
  · intro f hf
    obtain ⟨x, t, w, u, rfl⟩ := h f hf
    show ("A" : String) ≠ "B"
    decide +kernel
  · intro f hf g hg s hs s' hs' hn
    obtain ⟨x, t, w, u, rfl⟩ := h f hf
    obtain ⟨x', t', w', u', rfl⟩ := h g hg
    have hAB : ("A" : String) ≠ "B" := by decide +kernel
    simp only [arrays, List.mem_cons, List.not_mem_nil, or_false] at hs hs'
    rcases hs with rfl | rfl <;> rcases hs' with rfl | rfl
    · rfl
    · exact absurd hn hAB
    · exact absurd hn.symm hAB
    · rfl

end Fixture

open Fixture in
/-- The hypotheses of `C69_roundtrip` are met by two files with random and systematic uncertainties. -/
theorem C69_case : (∀ f ∈ [arrays 3 [1, 2] [] [], arrays 4 [2, 2] [] []], f.Fits) ∧ ConsistentArrays [arrays 3 [1, 2] [] [], arrays 4 [2, 2] [] []] ∧
    (∀ f ∈ [arrays 3 [1, 2] [] [], arrays 4 [2, 2] [] []], ∀ t ∈ f.s1.utype ++ f.s2.utype, t = 1 ∨ t = 2) ∧
    ("extra", (⟨["M"], [3, 9]⟩ : NcVar Int)) ∈ (arrays 3 [1, 2] [] []).additional ∧ ("extra" : String) ∉ standardVariableNames := by
  refine ⟨?_, arrays_consistent ?_, ?_, List.mem_cons_self, by decide +kernel⟩
  · intro f hf
    simp only [List.mem_cons, List.not_mem_nil, or_false] at hf
    rcases hf with rfl | rfl <;> exact arrays_fit _ _ _ rfl
  · intro f hf
    simp only [List.mem_cons, List.not_mem_nil, or_false] at hf
    rcases hf with rfl | rfl <;> exact ⟨_, _, _, _, rfl⟩
  · intro f hf
    simp only [List.mem_cons, List.not_mem_nil, or_false] at hf
    rcases hf with rfl | rfl
    · show ∀ t ∈ [1, 1, 2], t = 1 ∨ t = 2
      decide
    · show ∀ t ∈ [1, 2, 2], t = 1 ∨ t = 2
      decide

open Fixture in
/-- The hypotheses of `C69_matrices` are met by a file with two W matrices, and those of `C69_writer_drops_matrices` by the same arrays. -/
theorem C69_matrices_case : (arrays 3 [3, 4] [2, 1] [1, 1]).FitsMatrices [⟨[1, 2, 3], [0, 1, 1], [0, 2, 3], 2, 5⟩, ⟨[4, 5], [0, 3], [0, 1, 2], 2, 4⟩] [[6, 7]] ∧
    ConsistentArrays [arrays 3 [3, 4] [2, 1] [1, 1]] ∧ 3 ∈ (arrays 3 [3, 4] [2, 1] [1, 1]).s1.utype ++ (arrays 3 [3, 4] [2, 1] [1, 1]).s2.utype := by
  refine ⟨⟨arrays_fit _ _ _ rfl, by simp, ?_, ?_, ?_⟩, arrays_consistent ?_, by simp [arrays]⟩
  · intro w hw
    simp only [List.mem_cons, List.not_mem_nil, or_false] at hw
    rcases hw with rfl | rfl
    · exact ⟨⟨rfl, rfl, rfl, rfl⟩, rfl, by simp⟩
    · exact ⟨⟨rfl, rfl, rfl, rfl⟩, rfl, by simp⟩
  · intro s hs
    simp only [List.mem_cons, List.not_mem_nil, or_false] at hs
    rcases hs with rfl | rfl <;> exact ⟨rfl, rfl⟩
  · intro s hs c t w u ht hw hu
    simp only [List.mem_cons, List.not_mem_nil, or_false] at hs
    rcases hs with rfl | rfl
    · rcases c with _ | c
      · cases ht; exact .inl rfl
      · simp [arrays] at ht
    · rcases c with _ | _ | c
      · cases ht; cases hw; cases hu
        refine .inr (.inr ⟨.inl rfl, ?_⟩); simp
      · cases ht; cases hw; cases hu
        refine .inr (.inr ⟨.inr ⟨rfl, le_rfl⟩, ?_⟩); simp
      · simp [arrays] at ht
  · intro f hf
    rw [List.mem_singleton.1 hf]
    exact ⟨_, _, _, _, rfl⟩

end Verif
