import Verif.Spec.Checker
import Verif.Lemmas.GNOpened
import Verif.Props.GNTotal
/-
Property C67: a consistent set of files with readable columns opens.
-/
set_option autoImplicit false
namespace Verif
variable {α δ : Type} [Zero α] [DecidableEq α]

theorem openOptionalIndex_total {nan : α} {toInt : α → α} {name : String} {ds : List (Dataset α)} {x : Idx} {mx : Nat} (hi : IdxFacts ds x mx)
    (h : ∀ d ∈ ds, ∀ v, d.var? name = some v → v.data.length = d.M) : ∃ r, openOptionalIndex nan toInt name ds x = .ok r := by
  unfold openOptionalIndex
  split
  · rw [hi.cNm_last]
    exact ⟨_, bind_ok.2 ⟨_, rfl, bind_ok.2 ⟨_, series_ok hi 0 _ (by
      intro d hd
      cases hv : d.var? name with
      | none => simp
      | some v => simp [h d hd v hv]), rfl⟩⟩⟩
  · exact ⟨_, rfl⟩

theorem uncStep_total {widx uidx : List (Nat × Nat)} {keys : List (Nat × Nat × Nat)} (st : UncState α) {d : Dataset α} {i n c : Nat} {s : Side α}
    (hk : (n, i + 1, c + 1) ∈ keys) (hr : d.ReadableColumn s c) (hw : d.hasUse = true → s.wUse c ≠ 0 → (i + 1, s.wUse c) ∈ widx)
    (hu : d.hasUse = true → s.uUse c ≠ 0 → (i + 1, s.uUse c) ∈ uidx) : ∃ st', uncStep widx uidx keys st (d, i, s, n, c) = .ok st' := by
  unfold uncStep
  simp only
  rw [pyIndex_of_mem hk]
  rcases hr with h | h | ⟨h, huse, hw0, hu0, ⟨W, hW⟩, U, hU⟩
  · simp only [bind, Except.bind, pure, Except.pure, h, if_true]
    exact ⟨_, rfl⟩
  · simp only [bind, Except.bind, pure, Except.pure, h, if_true]
    exact ⟨_, rfl⟩
  · rcases h with h | ⟨h, hM⟩
    · simp only [huse, if_true, bind, Except.bind, pure, Except.pure, h, pyIndex_of_mem (hw huse hw0), pyIndex_of_mem (hu huse hu0), hW, hU]
      exact ⟨_, rfl⟩
    · have hM' : 1 < d.M := hM
      simp only [huse, if_true, bind, Except.bind, pure, Except.pure, h, pyIndex_of_mem (hw huse hw0), pyIndex_of_mem (hu huse hu0), hW, hU, hM']
      exact ⟨_, rfl⟩

theorem foldlM_total_all {β γ : Type} {f : β → γ → Py β} : ∀ {l : List γ} (b : β), (∀ x ∈ l, ∀ b, ∃ r, f b x = .ok r) → ∃ r, l.foldlM f b = .ok r
  | [], b, _ => ⟨b, rfl⟩
  | a :: l, b, h => by
    obtain ⟨r, hr⟩ := h a (by simp) b
    obtain ⟨q, hq⟩ := foldlM_total_all (l := l) r fun x hx => h x (by simp [hx])
    exact ⟨q, by rw [List.foldlM_cons, hr]; exact hq⟩

theorem mem_matrixIdxs {enum : List Nat → List Nat} (he : EnumOk enum) {sel : Side α → Nat → Nat} {ds : List (Dataset α)} {i c : Nat} {d : Dataset α}
    {s : Side α} (hd : ds[i]? = some d) (hs : d.HasSide s) (hc : c < s.m) (huse : d.hasUse = true) (h0 : sel s c ≠ 0) :
    (i + 1, sel s c) ∈ matrixIdxs enum sel ds := by
  unfold matrixIdxs
  refine List.mem_flatMap.2 ⟨(d, i), List.mem_zipIdx_iff_getElem?.2 hd, List.mem_map.2 ⟨sel s c, ((he _).2 _).2 ?_, rfl⟩⟩
  simp only [Dataset.uses, huse, if_true]
  refine List.mem_filter.2 ⟨?_, by simpa using h0⟩
  rcases hs with rfl | rfl
  · exact List.mem_append_left _ (List.mem_map.2 ⟨c, by simpa using hc, rfl⟩)
  · exact List.mem_append_right _ (List.mem_map.2 ⟨c, by simpa using hc, rfl⟩)

/-- **C67.** Any non-empty list of consistent files opens, provided that every column has a type from 1 to 4 whose matrices exist, that files with a type 4
column have two match-ups, and that optional variables have one element per match-up. -/
theorem C67_opens (env : ReadEnv α δ) (he : EnumOk env.enumNat) (he' : EnumOk env.enumStr) {ds : List (Dataset α)} (hne : ds ≠ []) (hc : ConsistentFiles ds)
    (ho : OptionalSized ds) (hcol : ∀ d ∈ ds, ∀ s, d.HasSide s → ∀ c, c < s.m → d.ReadableColumn s c) : ∃ mu, openMatchUp env ds = .ok mu := by
  obtain ⟨x, mx, hx, hi⟩ := getIdx_facts hne
  obtain ⟨v, hv, _⟩ := openValues_spec hi hc
  have hk : openKs ds x = .ok (ds.map fun d => vector d.M d.K).flatten := by
    unfold openKs
    rw [hi.cNm_last]
    exact bind_ok.2 ⟨_, rfl, series_ok hi 0 _ (by simp [vector])⟩
  have ht : ∀ sel, openTime env.dateZero env.toDate sel ds x = .ok (ds.map fun d => (vector d.M (sel d)).map env.toDate).flatten := by
    intro sel
    unfold openTime
    rw [hi.cNm_last]
    exact bind_ok.2 ⟨_, rfl, series_ok hi _ _ (by simp [vector])⟩
  have hx' : ∀ name ∈ ["across_track_index1", "across_track_index2", "along_track_index1", "along_track_index2"],
      ∃ r, openOptionalIndex env.nan env.toInt name ds x = .ok r := fun name hn =>
    openOptionalIndex_total hi fun d hd w hw => ho d hd d hd name w hw (.inr hn)
  obtain ⟨a1, h1⟩ := hx' "across_track_index1" (by simp)
  obtain ⟨a2, h2⟩ := hx' "across_track_index2" (by simp)
  obtain ⟨a3, h3⟩ := hx' "along_track_index1" (by simp)
  obtain ⟨a4, h4⟩ := hx' "along_track_index2" (by simp)
  have hadd : ∃ a, openAdditional env.nan env.fill (additionalNames env.enumStr ds) ds x = .ok a := by
    unfold openAdditional
    apply mapM_total
    intro name hname
    obtain ⟨e, hee, hnm⟩ := List.mem_flatMap.1 (((he' _).2 name).1 hname)
    unfold openAdditionalColumn
    rw [hi.cNm_last]
    exact ⟨_, bind_ok.2 ⟨_, rfl, series_ok hi 0 _ (by
      intro d hd
      cases hv : d.var? name with
      | none => simp
      | some v => simp [ho d hd e hee name v hv (.inl hnm)])⟩⟩
  obtain ⟨ad, had⟩ := hadd
  have hunc : ∃ r, openUnc env.enumNat ds x = .ok r := by
    obtain ⟨st, hst⟩ := foldlM_total_all (f := uncStep (matrixIdxs env.enumNat Side.wUse ds) (matrixIdxs env.enumNat Side.uUse ds) x.blocks)
      (l := uncJobs ds x)
      { unc := List.replicate x.N_var.length none
        ws := List.replicate (matrixIdxs env.enumNat Side.wUse ds).length none
        us := List.replicate (matrixIdxs env.enumNat Side.uUse ds).length none } (by
        intro j hj st
        obtain ⟨i, d, s, c, hd, hs, hlt, rfl⟩ := (mem_uncJobs hi).1 hj
        exact uncStep_total st ((hi.mem_blocks hc).2 ⟨by omega, by omega, d, s, by simpa using hd, hs, rfl, Nat.succ_le_of_lt hlt⟩)
          (hcol d (List.mem_of_getElem? hd) s hs c hlt) (fun h h0 => mem_matrixIdxs he hd hs hlt h h0) (fun h h0 => mem_matrixIdxs he hd hs hlt h h0))
    have hfold := uncFold (ds := ds) (hi.nodup hc) (uncJobs ds x) (by
        intro j hj
        obtain ⟨i, d, s, c, hd, hs, hlt, rfl⟩ := (mem_uncJobs hi).1 hj
        exact ⟨hd, (hi.mem_blocks hc).2 ⟨by omega, by omega, d, s, by simpa using hd, hs, rfl, Nat.succ_le_of_lt hlt⟩⟩) _ st
      ⟨by simp, by
        intro k i w m _ hs
        simp [List.getElem?_replicate] at hs⟩
      ⟨by simp, by
        intro k i w m _ hs
        simp [List.getElem?_replicate] at hs⟩ (by simp [hi.N_var_length]) hst
    obtain ⟨_, _, hlen, _, _, _, g7⟩ := hfold
    have hall : ∀ e ∈ (x.n_sensor.zip x.n_cov).zip st.unc, e.2 ≠ none := by
      rintro ⟨k, o⟩ hke
      obtain ⟨b, hb⟩ := List.mem_iff_getElem?.1 hke
      rw [List.getElem?_zip_eq_some] at hb
      have hbl : b < x.blocks.length := by rw [← hlen]; exact (List.getElem?_eq_some_iff.1 hb.2).1
      obtain ⟨⟨n, i, c⟩, hbk⟩ : ∃ k, x.blocks[b]? = some k := ⟨_, List.getElem?_eq_getElem hbl⟩
      obtain ⟨hi1, hc1, d, s, hd, hs, rfl, hcm⟩ := (hi.mem_blocks hc).1 (List.mem_of_getElem? hbk)
      obtain ⟨_, k2⟩ := g7 (uncJobs_nodup hi hc) (d, i - 1, s, x.sensors.idxOf s.name, c - 1)
        ((mem_uncJobs hi).2 ⟨i - 1, d, s, c - 1, hd, hs, by omega, rfl⟩) b (by rw [hbk]; simp [uncJobKey]; omega)
      have hr := hcol d (List.mem_of_getElem? hd) s hs (c - 1) (by omega)
      have hty : s.utype (c - 1) ∈ [1, 2, 3, 4] := by
        rcases hr with h | h | ⟨h | ⟨h, _⟩, _⟩ <;> simp [h]
      obtain ⟨wi, ui, e1, _⟩ := k2 hty
      rw [hb.2] at e1
      simp only [Option.some.injEq] at e1
      simp only at e1 ⊢
      rw [e1]
      simp only [List.mem_cons, List.not_mem_nil, or_false] at hty
      rcases hty with h | h | h | h <;> simp [expectedUnc, h]
    obtain ⟨r, hr⟩ := sysFold_total _ ([], []) hall
    exact ⟨_, bind_ok.2 ⟨st, hst, bind_ok.2 ⟨r.2, by unfold numberSystematic; rw [hr]; rfl, rfl⟩⟩⟩
  obtain ⟨⟨u, ws, us⟩, hu⟩ := hunc
  exact ⟨_, bind_ok.2 ⟨x, hx, bind_ok.2 ⟨v, hv, bind_ok.2 ⟨_, hk, bind_ok.2 ⟨_, ht _, bind_ok.2 ⟨_, ht _, bind_ok.2 ⟨a1, h1, bind_ok.2 ⟨a2, h2,
    bind_ok.2 ⟨a3, h3, bind_ok.2 ⟨a4, h4, bind_ok.2 ⟨(u, ws, us), hu, bind_ok.2 ⟨ad, had, rfl⟩⟩⟩⟩⟩⟩⟩⟩⟩⟩⟩⟩

end Verif
