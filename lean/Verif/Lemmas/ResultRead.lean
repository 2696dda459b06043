import Verif.Lemmas.ResultDir
/-
The block structure rebuilt from residual files.
-/
set_option autoImplicit false
namespace Verif
variable {α : Type}

/-- A residual side as a side of a match-up file (for the lemmas about the reader). -/
def ResSide.asSide [Zero α] (avail : Bool) (s : ResSide α) : Side α :=
  { name := s.name, m := s.m avail, X := fun r c => ((s.X.map fun p => p.2 r c).getD 0), Ur := fun _ _ => 0, Us := fun _ _ => 0, utype := fun _ => 0, wUse := fun _ => 0, uUse := fun _ => 0 }

def ResFile.asDs [Zero α] (avail : Bool) (f : ResFile α) : Dataset α :=
  { M := f.M, s1 := f.s1.asSide avail, s2 := f.s2.asSide avail, K := fun _ => 0, Kr := fun _ => 0, Ks := fun _ => 0, time1 := fun _ => 0, time2 := fun _ => 0
    hasUse := false, vars := [], wNnz := [], wVal := [], wCol := [], wRow := [], uCount := [], uVal := [] }

theorem resSensors_eq [Zero α] (avail : Bool) (fs : List (ResFile α)) : resSensors avail fs = getSensors (fs.map (ResFile.asDs avail)) := by
  unfold resSensors getSensors
  have e : (fs.map (ResFile.asDs avail)).flatMap Dataset.sides = (fs.flatMap fun f => [f.s1, f.s2]).map (ResSide.asSide avail) := by
    induction fs with
    | nil => rfl
    | cons f fs ih => simp only [List.map_cons, List.flatMap_cons, ih, List.map_append]; rfl
  rw [e, List.foldl_map]
  rfl

/-- The blocks rebuilt: those of the first sensor, then the others'. -/
def resBlocks (Im : List (Nat × Nat)) (ms : List Nat) (mx : Nat) : List (Nat × Nat × Nat) :=
  (Im.zipIdx.filter fun pi => 0 ∈ pairList pi.1).map (fun pi => (0, pi.2 + 1, 1)) ++ (blockList Im ms mx).filter (fun b => b.1 ≠ 0)

theorem filter_map_comm {β γ : Type} (l : List β) (f : β → γ) (p : γ → Bool) : (l.map f).filter p = (l.filter fun b => p (f b)).map f := by
  induction l with
  | nil => rfl
  | cons a l ih =>
    by_cases h : p (f a) = true
    · simp [List.filter_cons, h, ih]
    · simp [List.filter_cons, h, ih]

theorem count_refs {Im : List (Nat × Nat)} (hne : ∀ p ∈ Im, p.1 ≠ p.2) (n : Nat) :
    ((Im.flatMap pairList).filter (· = 0)).length = ((Im.zipIdx n).filter fun pi => 0 ∈ pairList pi.1).length := by
  induction Im generalizing n with
  | nil => rfl
  | cons p Im ih =>
    have hp := hne p (by simp)
    have := ih (fun q hq => hne q (by simp [hq])) (n + 1)
    rw [List.flatMap_cons, List.filter_append, List.length_append, this, List.zipIdx_cons]
    obtain ⟨a, b⟩ := p
    simp only at hp
    by_cases h1 : a = 0
    · have h2 : b ≠ 0 := by omega
      subst h1
      rw [List.filter_cons_of_pos (by simp [pairList])]
      simp [pairList, h2]; omega
    · by_cases h2 : b = 0
      · subst h2
        rw [List.filter_cons_of_pos (by simp [pairList])]
        simp [pairList, h1]; omega
      · rw [List.filter_cons_of_neg (by simp [pairList, Ne.symm h1, Ne.symm h2])]
        simp [pairList, h1, h2]

theorem res_n_sensor {Im : List (Nat × Nat)} (ms : List Nat) (mx : Nat) (hne : ∀ p ∈ Im, p.1 ≠ p.2) :
    List.replicate ((Im.flatMap pairList).filter (· = 0)).length 0 ++
      (List.range mx).flatMap (fun k => ((Im.flatMap pairList).filter (· ≠ 0)).filter (hasCov ms (k + 1))) = (resBlocks Im ms mx).map (·.1) := by
  unfold resBlocks
  rw [List.map_append, count_refs hne 0]
  congr 1
  · rw [List.map_map]
    induction (Im.zipIdx.filter fun pi => decide (0 ∈ pairList pi.1)) with
    | nil => rfl
    | cons a l ih => simp only [List.length_cons, List.replicate_succ, ih, List.map_cons]; rfl
  · rw [← filter_map_comm (blockList Im ms mx) (·.1) (fun s => decide (s ≠ 0)), ← getNSensor_eq]
    unfold getNSensor
    rw [filter_flatMap' (List.range mx)]
    congr 1; funext k
    rw [List.filter_filter, List.filter_filter]
    congr 1; funext s
    exact Bool.and_comm _ _

theorem res_n_mu (Im : List (Nat × Nat)) (ms : List Nat) (mx : Nat) :
    (Im.zipIdx.filter fun pi => 0 ∈ pairList pi.1).map (fun pi => pi.2 + 1) ++
      (List.range mx).flatMap (fun k => Im.zipIdx.flatMap fun pi => ((pairList pi.1).filter fun s => hasCov ms (k + 1) s && s ≠ 0).map fun _ => pi.2 + 1) =
      (resBlocks Im ms mx).map (·.2.1) := by
  unfold resBlocks
  rw [List.map_append, List.map_map]
  congr 1
  unfold blockList
  simp only [filter_flatMap', map_flatMap', filter_map_comm, List.map_map, Function.comp_def, List.filter_filter]
  congr 1; funext k; congr 1; funext pi; congr 1; congr 1; funext s; exact Bool.and_comm _ _

theorem res_n_cov {Im : List (Nat × Nat)} (ms : List Nat) (mx : Nat) (hne : ∀ p ∈ Im, p.1 ≠ p.2) :
    List.replicate ((Im.flatMap pairList).filter (· = 0)).length 1 ++
      (List.range mx).flatMap (fun k => Im.flatMap fun p => ((pairList p).filter fun s => hasCov ms (k + 1) s && s ≠ 0).map fun _ => k + 1) =
      (resBlocks Im ms mx).map (·.2.2) := by
  unfold resBlocks
  rw [List.map_append, count_refs hne 0]
  congr 1
  · rw [List.map_map]
    induction (Im.zipIdx.filter fun pi => decide (0 ∈ pairList pi.1)) with
    | nil => rfl
    | cons a l ih => simp only [List.length_cons, List.replicate_succ, ih, List.map_cons]; rfl
  · unfold blockList
    simp only [filter_flatMap', map_flatMap', filter_map_comm, List.map_map, Function.comp_def, List.filter_filter]
    congr 1; funext k
    rw [← zipIdx_flatMap_fst Im (fun p => List.map (fun _ => k + 1) ((pairList p).filter fun s => hasCov ms (k + 1) s && decide (s ≠ 0))) 0]
    congr 1; funext pi; congr 1; congr 1; funext s; exact Bool.and_comm _ _

theorem mem_resBlocks {Im : List (Nat × Nat)} {ms : List Nat} {mx s i c : Nat} : (s, i, c) ∈ resBlocks Im ms mx ↔
    (s = 0 ∧ c = 1 ∧ 1 ≤ i ∧ ∃ p, Im[i - 1]? = some p ∧ (0 = p.1 ∨ 0 = p.2)) ∨ (s ≠ 0 ∧ (s, i, c) ∈ blockList Im ms mx) := by
  unfold resBlocks
  rw [List.mem_append, List.mem_filter]
  constructor
  · rintro (h | ⟨h1, h2⟩)
    · obtain ⟨⟨p, n⟩, hp, he⟩ := List.mem_map.1 h
      rw [List.mem_filter, List.mem_zipIdx_iff_getElem?] at hp
      simp only [Prod.mk.injEq] at he
      obtain ⟨rfl, rfl, rfl⟩ := he
      exact .inl ⟨rfl, rfl, by omega, p, by simpa using hp.1, by simpa [pairList] using hp.2⟩
    · exact .inr ⟨by simpa using h2, h1⟩
  · rintro (⟨rfl, rfl, h1, p, hp, h2⟩ | ⟨h1, h2⟩)
    · refine .inl (List.mem_map.2 ⟨(p, i - 1), ?_, ?_⟩)
      · rw [List.mem_filter, List.mem_zipIdx_iff_getElem?]
        exact ⟨hp, by simpa [pairList] using h2⟩
      · rw [Nat.sub_add_cancel h1]
    · exact .inr ⟨h2, by simpa using h1⟩

theorem resBlocks_nodup {Im : List (Nat × Nat)} {ms : List Nat} {mx : Nat} (hne : ∀ p ∈ Im, p.1 ≠ p.2) : (resBlocks Im ms mx).Nodup := by
  unfold resBlocks
  rw [List.nodup_append]
  refine ⟨?_, (blockList_nodup hne).filter _, ?_⟩
  · have : (Im.zipIdx.filter fun pi => decide (0 ∈ pairList pi.1)).Pairwise (fun a b => a.2 ≠ b.2) := by
      refine List.Pairwise.filter _ ?_
      rw [← List.pairwise_map (f := Prod.snd) (R := fun a b => a ≠ b)]
      simp only [List.zipIdx_map_snd]
      exact List.nodup_range'
    rw [List.Nodup, List.pairwise_map]
    refine this.imp ?_
    intro a b hab h
    simp only [Prod.mk.injEq] at h
    omega
  · intro a ha b hb
    obtain ⟨pi, -, rfl⟩ := List.mem_map.1 ha
    have := (List.mem_filter.1 hb).2
    rintro rfl
    simp at this

/-- Facts about the structure rebuilt when the `X` residuals are there. -/
structure ResFacts (fs : List (ResFile α)) (x : Idx) (mx : Nat) : Prop where
  Nm : x.Nm = fs.map (·.M)
  cNm : x.cNm = prefixSums (fs.map (·.M))
  Im : x.Im = fs.map fun f => (x.sensors.idxOf f.s1.name, x.sensors.idxOf f.s2.name)
  nodup : x.sensors.Nodup
  mem : ∀ n, n ∈ x.sensors ↔ ∃ f ∈ fs, n = f.s1.name ∨ n = f.s2.name
  len : x.sensors.length = x.sensor_ms.length
  first : ∀ (i : Nat) (n : String), x.sensors[i]? = some n → ∃ f ∈ fs, ∃ s, (s = f.s1 ∨ s = f.s2) ∧ s.name = n ∧ x.sensor_ms[i]? = some (s.m (resAvailable fs))
  zero : ∀ f0, fs.head? = some f0 → x.sensors[0]? = some f0.s1.name
  blocks : resAvailable fs = true → x.blocks = resBlocks x.Im x.sensor_ms mx
  mx_ge : ∀ m ∈ x.sensor_ms, m ≤ mx
  N_var : resAvailable fs = true → x.N_var = x.n_mu.map fun n => (fs.map (·.M)).getD (n - 1) 0
  n_mu : resAvailable fs = true → x.n_mu = (resBlocks x.Im x.sensor_ms mx).map (·.2.1)
  idx : resAvailable fs = true → x.idx = prefixSums x.N_var

theorem resIdx_facts [Zero α] {fs : List (ResFile α)} (hne : fs ≠ []) (hn : ∀ f ∈ fs, f.s1.name ≠ f.s2.name) :
    ∃ x mx, resIdx fs = .ok x ∧ ResFacts fs x mx := by
  obtain ⟨av, hav⟩ : ∃ av, av = resAvailable fs := ⟨_, rfl⟩
  obtain ⟨h1, h2, h3, h4, h5⟩ := getSensors_facts (fs.map (ResFile.asDs av))
  rw [← resSensors_eq] at h1 h2 h3 h4 h5
  have h3' : ∀ n, n ∈ (resSensors av fs).1 ↔ ∃ f ∈ fs, n = f.s1.name ∨ n = f.s2.name := by
    intro n
    rw [h3]
    constructor
    · rintro ⟨s, hs, rfl⟩
      obtain ⟨d, hd, hsd⟩ := mem_sides.1 hs
      obtain ⟨f, hf, rfl⟩ := List.mem_map.1 hd
      refine ⟨f, hf, ?_⟩
      rcases hsd with rfl | rfl
      · exact .inl rfl
      · exact .inr rfl
    · rintro ⟨f, hf, h⟩
      rcases h with rfl | rfl
      · exact ⟨_, mem_sides.2 ⟨_, List.mem_map.2 ⟨f, hf, rfl⟩, .inl rfl⟩, rfl⟩
      · exact ⟨_, mem_sides.2 ⟨_, List.mem_map.2 ⟨f, hf, rfl⟩, .inr rfl⟩, rfl⟩
  have h5' : ∀ (i : Nat) (n : String), (resSensors av fs).1[i]? = some n → ∃ f ∈ fs, ∃ s, (s = f.s1 ∨ s = f.s2) ∧ s.name = n ∧
      (resSensors av fs).2[i]? = some (s.m (resAvailable fs)) := by
    intro i n hi
    obtain ⟨s, hs, e1, e2⟩ := h5 i n hi
    obtain ⟨d, hd, hsd⟩ := mem_sides.1 hs
    obtain ⟨f, hf, rfl⟩ := List.mem_map.1 hd
    rw [← hav]
    rcases hsd with rfl | rfl
    · exact ⟨f, hf, f.s1, .inl rfl, e1, e2⟩
    · exact ⟨f, hf, f.s2, .inr rfl, e1, e2⟩
  have h0 : ∀ f0, fs.head? = some f0 → (resSensors av fs).1[0]? = some f0.s1.name := by
    intro f0 hf0
    cases fs with
    | nil => cases hf0
    | cons f fs' =>
      cases hf0
      have hpre := (sensorStep_fold (((f0 :: fs').map (ResFile.asDs av)).flatMap Dataset.sides).tail ([f0.s1.name], [f0.s1.m av]) rfl).2.2.2.1
      obtain ⟨t, ht⟩ := hpre
      rw [resSensors_eq]
      unfold getSensors
      have e : ((f0 :: fs').map (ResFile.asDs av)).flatMap Dataset.sides = f0.s1.asSide av :: (((f0 :: fs').map (ResFile.asDs av)).flatMap Dataset.sides).tail := rfl
      rw [e, List.foldl_cons]
      have e2 : sensorStep ([], []) (f0.s1.asSide av) = ([f0.s1.name], [f0.s1.m av]) := rfl
      rw [e2, ← ht]; rfl
  have hIne : ∀ p ∈ resIm (resSensors av fs).1 fs, p.1 ≠ p.2 := by
    intro p hp
    obtain ⟨f, hf, rfl⟩ := List.mem_map.1 hp
    intro he
    have m1 := (h3' _).2 ⟨f, hf, .inl rfl⟩
    have m2 := (h3' _).2 ⟨f, hf, .inr rfl⟩
    simp only at he
    have e1 := List.getElem_idxOf (List.idxOf_lt_length_of_mem m1)
    have e2 := List.getElem_idxOf (List.idxOf_lt_length_of_mem m2)
    simp only [he] at e1
    exact hn f hf (e1.symm.trans e2)
  have hms : (resSensors av fs).2 ≠ [] := by
    intro h
    cases fs with
    | nil => exact hne rfl
    | cons f fs' =>
      have := h0 f rfl
      have hl : (resSensors av (f :: fs')).1.length = 0 := by rw [h4, h]; rfl
      rw [List.getElem?_eq_none (by omega)] at this
      cases this
  obtain ⟨mx, hmx⟩ : ∃ mx, pyMax (resSensors av fs).2 = .ok mx := by
    cases h : (resSensors av fs).2 with
    | nil => exact absurd h hms
    | cons a l => exact ⟨_, rfl⟩
  have hmx' := pyMax_ok hmx
  obtain ⟨Im, hIm⟩ : ∃ Im, Im = resIm (resSensors av fs).1 fs := ⟨_, rfl⟩
  obtain ⟨sens, hsens⟩ : ∃ q, q = resSensors av fs := ⟨_, rfl⟩
  rw [← hsens] at h1 h2 h3' h4 h5' h0 hIne hms hmx hmx' hIm
  rw [← hIm] at hIne
  cases hb : av with
  | true =>
    have hav' : resAvailable fs = true := by rw [← hav, hb]
    have hNV : ((resBlocks Im sens.2 mx).map (·.2.1)).mapM (fun n => pyGet (fs.map (·.M)) (n - 1)) =
        .ok (((resBlocks Im sens.2 mx).map (·.2.1)).map fun n => (fs.map (·.M)).getD (n - 1) 0) := by
      apply mapM_ok_of
      intro n hn'
      obtain ⟨⟨s, i, c⟩, hbm, rfl⟩ := List.mem_map.1 hn'
      have : ∃ p, Im[i - 1]? = some p := by
        rcases mem_resBlocks.1 hbm with ⟨_, _, _, p, hp, _⟩ | ⟨_, hbl⟩
        · exact ⟨p, hp⟩
        · obtain ⟨_, _, _, _, p, hp, _⟩ := mem_blockList.1 hbl; exact ⟨p, hp⟩
      obtain ⟨p, hp⟩ := this
      have hlt : i - 1 < fs.length := by
        have := (List.getElem?_eq_some_iff.1 hp).1
        simpa [hIm, resIm] using this
      simp [pyGet, List.getElem?_eq_getElem hlt, List.getD]
    refine ⟨{ Nm := fs.map (·.M), cNm := prefixSums (fs.map (·.M)), Im := Im, sensors := sens.1, sensor_ms := sens.2
              n_sensor := (resBlocks Im sens.2 mx).map (·.1), n_mu := (resBlocks Im sens.2 mx).map (·.2.1), n_cov := (resBlocks Im sens.2 mx).map (·.2.2)
              N_var := ((resBlocks Im sens.2 mx).map (·.2.1)).map fun n => (fs.map (·.M)).getD (n - 1) 0
              idx := prefixSums (((resBlocks Im sens.2 mx).map (·.2.1)).map fun n => (fs.map (·.M)).getD (n - 1) 0) }, mx, ?_, ?_⟩
    · unfold resIdx
      simp only [← hav, ← hsens]
      simp only [hb, if_true]
      rw [← hIm, hmx]
      refine bind_ok.2 ⟨mx, rfl, ?_⟩
      rw [res_n_sensor sens.2 mx hIne, res_n_mu, res_n_cov sens.2 mx hIne, hNV]
      rfl
    · exact { Nm := rfl, cNm := rfl, Im := hIm, nodup := h2, mem := h3', len := h4, first := h5', zero := h0, blocks := fun _ => zip3_map _, mx_ge := hmx'.1
              N_var := fun _ => rfl, n_mu := fun _ => rfl, idx := fun _ => rfl }
  | false =>
    have hav' : resAvailable fs = false := by rw [← hav, hb]
    refine ⟨{ Nm := fs.map (·.M), cNm := prefixSums (fs.map (·.M)), Im := Im, sensors := sens.1, sensor_ms := sens.2
              n_sensor := [], n_mu := [], n_cov := [], N_var := [], idx := [] }, mx, ?_, ?_⟩
    · unfold resIdx
      simp only [← hav, ← hsens]
      simp only [hb, Bool.false_eq_true, if_false]
      rw [← hIm]; rfl
    · refine { Nm := rfl, cNm := rfl, Im := hIm, nodup := h2, mem := h3', len := h4, first := h5', zero := h0, blocks := fun h => ?_, mx_ge := hmx'.1
               N_var := fun h => ?_, n_mu := fun h => ?_, idx := fun h => ?_ } <;> rw [hav'] at h <;> cases h

end Verif
