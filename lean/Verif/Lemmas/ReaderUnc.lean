import Verif.Lemmas.ReaderSeries
/-
Helper lemmas about uncertainty reading and numbering of systematic effects.
-/
set_option autoImplicit false
namespace Verif
variable {α : Type}

/-- Uncertainty types with a systematic component. -/
def Unc.isSys (u : Unc α) : Bool := u.typeID = 2 ∨ u.typeID = 4

theorem idxOf_prefix {κ : Type} [BEq κ] [LawfulBEq κ] {l r : List κ} (h : l <+: r) {k : κ} (hk : k ∈ l) :
    r.idxOf k = l.idxOf k := by
  obtain ⟨t, rfl⟩ := h
  exact List.idxOf_append_of_mem hk

theorem sysFold (es : List ((Nat × Nat) × Option (Unc α))) (st r : List (Nat × Nat) × List (UncBlock α))
    (h : es.foldlM sysStep st = .ok r) (hS : st.1.Nodup) :
    r.1.Nodup ∧ st.1 <+: r.1 ∧ (∃ ext, r.2 = st.2 ++ ext ∧ ext.length = es.length ∧
      ∀ (i : Nat) (e : (Nat × Nat) × Option (Unc α)), es[i]? = some e → ∃ u, e.2 = some u ∧
        ext[i]? = some ⟨u, if u.isSys then some (r.1.idxOf e.1 + 1) else none⟩ ∧ (u.isSys → e.1 ∈ r.1)) ∧
    ∀ k ∈ r.1, k ∈ st.1 ∨ ∃ e ∈ es, ∃ u, e.2 = some u ∧ u.isSys ∧ e.1 = k := by
  induction es generalizing st with
  | nil =>
    simp only [List.foldlM_nil, pure, Except.pure, Except.ok.injEq] at h
    subst h
    exact ⟨hS, List.prefix_refl _, ⟨[], by simp, rfl, by simp⟩, fun k hk => .inl hk⟩
  | cons e es ih =>
    rw [List.foldlM_cons, bind_ok] at h
    obtain ⟨st', hst', h⟩ := h
    obtain ⟨k, ou⟩ := e
    cases ou with
    | none => simp [sysStep] at hst'
    | some u =>
      by_cases hu : u.typeID = 2 ∨ u.typeID = 4
      · have hus : u.isSys = true := by simp [Unc.isSys, hu]
        by_cases hk : k ∈ st.1
        · simp only [sysStep, hu, hk, if_true, Except.ok.injEq] at hst'
          subst hst'
          obtain ⟨h1, h2, ⟨ext, h3, h4, h5⟩, h6⟩ := ih _ h hS
          refine ⟨h1, h2, ⟨⟨u, some (st.1.idxOf k + 1)⟩ :: ext, by simp [h3], by simp [h4], ?_⟩, ?_⟩
          · intro i e hi
            cases i with
            | zero =>
              simp only [List.getElem?_cons_zero, Option.some.injEq] at hi
              subst hi
              refine ⟨u, rfl, ?_, fun _ => h2.subset hk⟩
              simp [hus, idxOf_prefix h2 hk]
            | succ i => simpa using h5 i e (by simpa using hi)
          · intro k' hk'
            rcases h6 k' hk' with h | ⟨e, he, u', hu', h⟩
            · exact .inl h
            · exact .inr ⟨e, by simp [he], u', hu', h⟩
        · simp only [sysStep, hu, hk, if_true, if_false, Except.ok.injEq] at hst'
          subst hst'
          have hS' : (st.1 ++ [k]).Nodup := by
            rw [List.nodup_append]
            refine ⟨hS, by simp, ?_⟩
            intro a ha b hb
            simp only [List.mem_singleton] at hb
            subst hb; intro hab; exact hk (hab ▸ ha)
          obtain ⟨h1, h2, ⟨ext, h3, h4, h5⟩, h6⟩ := ih _ h hS'
          have hidx : r.1.idxOf k = st.1.length := by
            rw [idxOf_prefix h2 (by simp), List.idxOf_append_of_notMem hk]
            simp
          refine ⟨h1, (List.prefix_append _ _).trans h2,
            ⟨⟨u, some (st.1.length + 1)⟩ :: ext, by simp [h3], by simp [h4], ?_⟩, ?_⟩
          · intro i e hi
            cases i with
            | zero =>
              simp only [List.getElem?_cons_zero, Option.some.injEq] at hi
              subst hi
              exact ⟨u, rfl, by simp [hus, hidx], fun _ => h2.subset (by simp)⟩
            | succ i => simpa using h5 i e (by simpa using hi)
          · intro k' hk'
            rcases h6 k' hk' with h | ⟨e, he, u', hu', h⟩
            · simp only [List.mem_append, List.mem_singleton] at h
              rcases h with h | rfl
              · exact .inl h
              · exact .inr ⟨(k', some u), by simp, u, rfl, hus, rfl⟩
            · exact .inr ⟨e, by simp [he], u', hu', h⟩
      · have hus : u.isSys = false := by simp only [Unc.isSys, hu, decide_false]
        simp only [sysStep, hu, if_false, Except.ok.injEq] at hst'
        subst hst'
        obtain ⟨h1, h2, ⟨ext, h3, h4, h5⟩, h6⟩ := ih _ h hS
        refine ⟨h1, h2, ⟨⟨u, none⟩ :: ext, by simp [h3], by simp [h4], ?_⟩, ?_⟩
        · intro i e hi
          cases i with
          | zero =>
            simp only [List.getElem?_cons_zero, Option.some.injEq] at hi
            subst hi
            exact ⟨u, rfl, by simp [hus], by simp [hus]⟩
          | succ i => simpa using h5 i e (by simpa using hi)
        · intro k' hk'
          rcases h6 k' hk' with h | ⟨e, he, u', hu', h⟩
          · exact .inl h
          · exact .inr ⟨e, by simp [he], u', hu', h⟩

theorem sysFold_total (es : List ((Nat × Nat) × Option (Unc α))) (st : List (Nat × Nat) × List (UncBlock α))
    (h : ∀ e ∈ es, e.2 ≠ none) : ∃ r, es.foldlM sysStep st = .ok r := by
  induction es generalizing st with
  | nil => exact ⟨st, rfl⟩
  | cons e es ih =>
    obtain ⟨k, ou⟩ := e
    cases ou with
    | none => exact absurd rfl (h (k, none) (by simp))
    | some u =>
      have : ∃ st', sysStep st (k, some u) = .ok st' := by
        unfold sysStep
        simp only
        split
        · split <;> exact ⟨_, rfl⟩
        · exact ⟨_, rfl⟩
      obtain ⟨st', hst'⟩ := this
      rw [List.foldlM_cons, hst']
      exact ih st' (fun e he => h e (by simp [he]))

/-! ### the uncertainty loop -/

theorem mem_uncJobs {ds : List (Dataset α)} {x : Idx} {mx : Nat} (h : IdxFacts ds x mx)
    {j : Dataset α × Nat × Side α × Nat × Nat} : j ∈ uncJobs ds x ↔
      ∃ i d s c, ds[i]? = some d ∧ (s = d.s1 ∨ s = d.s2) ∧ c < s.m ∧ j = (d, i, s, x.sensors.idxOf s.name, c) := by
  unfold uncJobs
  simp only [List.mem_flatMap, List.mem_zipIdx_iff_getElem?, List.mem_map, List.mem_range, Prod.exists,
    h.Im, Dataset.sides, pairList]
  constructor
  · rintro ⟨d, p1, p2, i, hi, s, n, hs, c, hlt, rfl⟩
    rw [List.getElem?_zip_eq_some] at hi
    obtain ⟨hd, hp⟩ := hi
    rw [List.getElem?_map, hd] at hp
    simp only [Option.map_some, Option.some.injEq, Prod.mk.injEq] at hp
    obtain ⟨rfl, rfl⟩ := hp
    simp only [List.zip_cons_cons, List.zip_nil_right, List.mem_cons, Prod.mk.injEq, List.not_mem_nil, or_false] at hs
    rcases hs with ⟨rfl, rfl⟩ | ⟨rfl, rfl⟩
    · exact ⟨i, d, d.s1, c, hd, .inl rfl, hlt, rfl⟩
    · exact ⟨i, d, d.s2, c, hd, .inr rfl, hlt, rfl⟩
  · rintro ⟨i, d, s, c, hd, hs, hlt, rfl⟩
    refine ⟨d, x.sensors.idxOf d.s1.name, x.sensors.idxOf d.s2.name, i, ?_, s, x.sensors.idxOf s.name, ?_, c, hlt, rfl⟩
    · rw [List.getElem?_zip_eq_some, List.getElem?_map, hd]; simp
    · rcases hs with rfl | rfl <;> simp

/-- The key under which a job stores its uncertainty. -/
def uncJobKey (j : Dataset α × Nat × Side α × Nat × Nat) : Nat × Nat × Nat := (j.2.2.2.1, j.2.1 + 1, j.2.2.2.2 + 1)

theorem uncJobs_nodup {ds : List (Dataset α)} {x : Idx} {mx : Nat} (h : IdxFacts ds x mx) (hc : ConsistentFiles ds) :
    ((uncJobs ds x).map uncJobKey).Nodup := by
  unfold uncJobs
  simp only [map_flatMap', List.map_map, Function.comp_def, uncJobKey]
  rw [List.nodup_flatMap]
  constructor
  · rintro ⟨⟨d, p⟩, i⟩ hmem
    rw [List.mem_zipIdx_iff_getElem?, List.getElem?_zip_eq_some] at hmem
    have hp : p.1 ≠ p.2 := h.pair_ne hc p (List.mem_of_getElem? hmem.2)
    simp only [Dataset.sides, pairList, List.zip_cons_cons, List.zip_nil_right, List.flatMap_cons, List.flatMap_nil,
      List.append_nil]
    rw [List.nodup_append]
    refine ⟨?_, ?_, ?_⟩
    · exact List.Nodup.map (fun a b h => by simpa using h) List.nodup_range
    · exact List.Nodup.map (fun a b h => by simpa using h) List.nodup_range
    · intro a ha b hb
      obtain ⟨c, _, rfl⟩ := List.mem_map.1 ha
      obtain ⟨c', _, rfl⟩ := List.mem_map.1 hb
      simp [hp]
  · have : ((ds.zip x.Im).zipIdx).Pairwise (fun a b => a.2 ≠ b.2) := by
      rw [← List.pairwise_map (f := Prod.snd) (R := fun a b => a ≠ b)]
      simp only [List.zipIdx_map_snd]
      exact List.nodup_range'
    refine this.imp ?_
    intro a b hab y hy hz
    simp only [List.mem_flatMap, List.mem_map] at hy hz
    obtain ⟨_, _, _, _, rfl⟩ := hy
    obtain ⟨_, _, _, _, h⟩ := hz
    simp only [Prod.mk.injEq] at h
    omega

/-- What one job stores: the expected uncertainty, given the positions of its matrices. -/
def expectedUnc (d : Dataset α) (s : Side α) (c wi ui : Nat) : Option (Unc α) :=
  match s.utype c with
  | 1 => some (.independent (column d.M s.Ur c))
  | 2 => some (.systematic (column d.M s.Ur c) (column d.M s.Us c))
  | 3 => some (.structured wi ui)
  | 4 => some (.structuredSystematic wi ui (s.Us 1 c))
  | _ => none

/-- W number of a column. -/
def wNum (d : Dataset α) (s : Side α) (c : Nat) : Nat := if d.hasUse then s.wUse c else 0
def uNum (d : Dataset α) (s : Side α) (c : Nat) : Nat := if d.hasUse then s.uUse c else 0

/-- Effect of one successful step. -/
theorem uncStep_inv {widx uidx : List (Nat × Nat)} {keys : List (Nat × Nat × Nat)} (hk : keys.Nodup) {st st' : UncState α}
    {d : Dataset α} {i : Nat} {s : Side α} {n c b : Nat} (hb : keys[b]? = some (n, i + 1, c + 1))
    (h : uncStep widx uidx keys st (d, i, s, n, c) = .ok st') :
    (s.utype c = 1 ∧ st' = { st with unc := st.unc.set b (some (.independent (column d.M s.Ur c))) }) ∨
    (s.utype c = 2 ∧ st' = { st with unc := st.unc.set b (some (.systematic (column d.M s.Ur c) (column d.M s.Us c))) }) ∨
    ((s.utype c = 3 ∨ (s.utype c = 4 ∧ 1 < d.M)) ∧ ∃ wi ui w u, widx[wi]? = some (i + 1, wNum d s c) ∧
      uidx[ui]? = some (i + 1, uNum d s c) ∧ openW d (wNum d s c) = .ok w ∧ openU d (uNum d s c) = .ok u ∧
      st' = { unc := st.unc.set b (some (if s.utype c = 3 then .structured wi ui else .structuredSystematic wi ui (s.Us 1 c)))
              ws := st.ws.set wi (some w), us := st.us.set ui (some u) }) ∨
    (s.utype c ∉ [1, 2, 3, 4] ∧ st' = st) := by
  unfold uncStep at h
  simp only at h
  rw [bind_ok] at h
  obtain ⟨b', hb', h⟩ := h
  have hbb : b' = b := by
    have e1 := idxOf_of_getElem? hk (pyIndex_ok hb')
    have e2 := idxOf_of_getElem? hk hb
    omega
  subst hbb
  split at h
  · rename_i h1; rw [pure_ok] at h; exact .inl ⟨h1, h.symm⟩
  · rename_i h1
    split at h
    · rename_i h2; rw [pure_ok] at h; exact .inr (.inl ⟨h2, h.symm⟩)
    · rename_i h2
      split at h
      · rename_i h3
        simp only [bind_ok, pure_ok] at h
        obtain ⟨wi, hwi, ui, hui, w, hw, u, hu, rfl⟩ := h
        exact .inr (.inr (.inl ⟨.inl h3, wi, ui, w, u, pyIndex_ok hwi, pyIndex_ok hui, hw, hu, by simp [h3]⟩))
      · rename_i h3
        split at h
        · rename_i h4
          simp only [bind_ok] at h
          obtain ⟨wi, hwi, ui, hui, w, hw, u, hu, h⟩ := h
          split at h
          · rename_i hM
            rw [pure_ok] at h
            exact .inr (.inr (.inl ⟨.inr ⟨h4, hM⟩, wi, ui, w, u, pyIndex_ok hwi, pyIndex_ok hui, hw, hu, by
              rw [← h, if_neg h3]⟩))
          · cases h
        · rename_i h4
          rw [pure_ok] at h
          refine .inr (.inr (.inr ⟨?_, h.symm⟩))
          simp [h1, h2, h3, h4]

/-- Invariant of the uncertainty loop: every matrix slot that has been filled holds the matrix named by its key. -/
def SlotsOk {μ : Type} (ds : List (Dataset α)) (opn : Dataset α → Nat → Py μ) (idxs : List (Nat × Nat)) (slots : List (Option μ)) : Prop :=
  slots.length = idxs.length ∧
  ∀ (k : Nat) (i w : Nat) (m : μ), idxs[k]? = some (i + 1, w) → slots[k]? = some (some m) →
    ∃ d, ds[i]? = some d ∧ opn d w = .ok m

theorem SlotsOk.set {μ : Type} {ds : List (Dataset α)} {opn : Dataset α → Nat → Py μ} {idxs : List (Nat × Nat)} {slots : List (Option μ)}
    (h : SlotsOk ds opn idxs slots) {k i w : Nat} {m : μ} {d : Dataset α} (hk : idxs[k]? = some (i + 1, w))
    (hd : ds[i]? = some d) (hm : opn d w = .ok m) : SlotsOk ds opn idxs (slots.set k (some m)) := by
  refine ⟨by simp [h.1], ?_⟩
  intro k' i' w' m' hk' hs
  by_cases hkk : k = k'
  · subst hkk
    rw [hk] at hk'
    simp only [Option.some.injEq, Prod.mk.injEq] at hk'
    have hlt : k < slots.length := by rw [h.1]; exact (List.getElem?_eq_some_iff.1 hk).1
    rw [List.getElem?_set_self hlt] at hs
    cases hs
    exact ⟨d, by rw [← hd]; congr 1; omega, by rw [← hk'.2]; exact hm⟩
  · rw [List.getElem?_set_ne hkk] at hs
    exact h.2 k' i' w' m' hk' hs

/-- A filled slot stays filled. -/
def Filled {μ : Type} (slots : List (Option μ)) (k : Nat) : Prop := ∃ m, slots[k]? = some (some m)

theorem Filled.set {μ : Type} {slots : List (Option μ)} {k k' : Nat} {m : μ} (h : Filled slots k) :
    Filled (slots.set k' (some m)) k := by
  obtain ⟨m', hm'⟩ := h
  by_cases hkk : k' = k
  · subst hkk
    exact ⟨m, by rw [List.getElem?_set_self (List.getElem?_eq_some_iff.1 hm').1]⟩
  · exact ⟨m', by rw [List.getElem?_set_ne hkk]; exact hm'⟩

theorem Filled.set_self {μ : Type} {slots : List (Option μ)} {k : Nat} {m : μ} (h : k < slots.length) :
    Filled (slots.set k (some m)) k := ⟨m, List.getElem?_set_self h⟩

/-- The whole uncertainty loop. -/
theorem uncFold {ds : List (Dataset α)} {widx uidx : List (Nat × Nat)} {keys : List (Nat × Nat × Nat)} (hk : keys.Nodup)
    (jobs : List (Dataset α × Nat × Side α × Nat × Nat))
    (hjobs : ∀ j ∈ jobs, ds[j.2.1]? = some j.1 ∧ uncJobKey j ∈ keys) (st st' : UncState α)
    (hw : SlotsOk ds openW widx st.ws) (hu : SlotsOk ds openU uidx st.us) (hl : st.unc.length = keys.length)
    (h : jobs.foldlM (uncStep widx uidx keys) st = .ok st') :
    SlotsOk ds openW widx st'.ws ∧ SlotsOk ds openU uidx st'.us ∧ st'.unc.length = keys.length ∧
    (∀ k, Filled st.ws k → Filled st'.ws k) ∧ (∀ k, Filled st.us k → Filled st'.us k) ∧
    (∀ (b : Nat) (k : Nat × Nat × Nat), keys[b]? = some k → k ∉ jobs.map uncJobKey → st'.unc[b]? = st.unc[b]?) ∧
    ((jobs.map uncJobKey).Nodup → ∀ j ∈ jobs, ∀ b : Nat, keys[b]? = some (uncJobKey j) →
      (j.2.2.1.utype j.2.2.2.2 ∉ [1, 2, 3, 4] → st'.unc[b]? = st.unc[b]?) ∧
      (j.2.2.1.utype j.2.2.2.2 ∈ [1, 2, 3, 4] → ∃ wi ui, st'.unc[b]? = some (expectedUnc j.1 j.2.2.1 j.2.2.2.2 wi ui) ∧
        (j.2.2.1.utype j.2.2.2.2 = 4 → 1 < j.1.M) ∧
        (j.2.2.1.utype j.2.2.2.2 ∈ [3, 4] →
          widx[wi]? = some (j.2.1 + 1, wNum j.1 j.2.2.1 j.2.2.2.2) ∧ Filled st'.ws wi ∧
          uidx[ui]? = some (j.2.1 + 1, uNum j.1 j.2.2.1 j.2.2.2.2) ∧ Filled st'.us ui))) := by
  induction jobs generalizing st with
  | nil =>
    simp only [List.foldlM_nil, pure_ok] at h
    subst h
    exact ⟨hw, hu, hl, fun _ h => h, fun _ h => h, fun _ _ _ _ => rfl, by simp⟩
  | cons j jobs ih =>
    rw [List.foldlM_cons, bind_ok] at h
    obtain ⟨st1, hst1, h⟩ := h
    obtain ⟨hdj, hkj⟩ := hjobs j (by simp)
    obtain ⟨d, i, s, n, c⟩ := j
    obtain ⟨b, hb⟩ := List.mem_iff_getElem?.1 hkj
    have hbl : b < keys.length := (List.getElem?_eq_some_iff.1 hb).1
    simp only [uncJobKey] at hb
    simp only at hdj
    -- facts about the single step
    have step : SlotsOk ds openW widx st1.ws ∧ SlotsOk ds openU uidx st1.us ∧ st1.unc.length = keys.length ∧
        (∀ k, Filled st.ws k → Filled st1.ws k) ∧ (∀ k, Filled st.us k → Filled st1.us k) ∧
        (∀ b', b' ≠ b → st1.unc[b']? = st.unc[b']?) ∧
        (s.utype c ∉ [1, 2, 3, 4] → st1.unc[b]? = st.unc[b]?) ∧
        (s.utype c ∈ [1, 2, 3, 4] → ∃ wi ui, st1.unc[b]? = some (expectedUnc d s c wi ui) ∧
          (s.utype c = 4 → 1 < d.M) ∧
          (s.utype c ∈ [3, 4] → widx[wi]? = some (i + 1, wNum d s c) ∧ Filled st1.ws wi ∧
            uidx[ui]? = some (i + 1, uNum d s c) ∧ Filled st1.us ui)) := by
      rcases uncStep_inv hk hb hst1 with ⟨h1, rfl⟩ | ⟨h1, rfl⟩ | ⟨h1, wi, ui, w, u, hwi, hui, hw', hu', rfl⟩ | ⟨h1, rfl⟩
      · refine ⟨hw, hu, by simp [hl], fun _ h => h, fun _ h => h, ?_, by simp [h1], ?_⟩
        · intro b' hb'; simp [List.getElem?_set_ne (Ne.symm hb')]
        · intro _
          exact ⟨0, 0, by simp [expectedUnc, h1, List.getElem?_set_self (by omega : b < st.unc.length)],
            by simp [h1], by simp [h1]⟩
      · refine ⟨hw, hu, by simp [hl], fun _ h => h, fun _ h => h, ?_, by simp [h1], ?_⟩
        · intro b' hb'; simp [List.getElem?_set_ne (Ne.symm hb')]
        · intro _
          exact ⟨0, 0, by simp [expectedUnc, h1, List.getElem?_set_self (by omega : b < st.unc.length)],
            by simp [h1], by simp [h1]⟩
      · have hwl : wi < st.ws.length := by rw [hw.1]; exact (List.getElem?_eq_some_iff.1 hwi).1
        have hul : ui < st.us.length := by rw [hu.1]; exact (List.getElem?_eq_some_iff.1 hui).1
        refine ⟨hw.set hwi hdj hw', hu.set hui hdj hu', by simp [hl], fun _ h => h.set, fun _ h => h.set, ?_, ?_, ?_⟩
        · intro b' hb'; simp [List.getElem?_set_ne (Ne.symm hb')]
        · intro hn; rcases h1 with h1 | h1 <;> simp [h1] at hn
        · intro _
          refine ⟨wi, ui, ?_, ?_, fun _ => ⟨hwi, Filled.set_self hwl, hui, Filled.set_self hul⟩⟩
          · simp only [List.getElem?_set_self (by omega : b < st.unc.length)]
            rcases h1 with h1 | ⟨h1, _⟩ <;> simp [expectedUnc, h1]
          · intro h4
            rcases h1 with h1 | ⟨_, h1⟩
            · omega
            · exact h1
      · refine ⟨hw, hu, hl, fun _ h => h, fun _ h => h, fun _ _ => rfl, fun _ => rfl, fun hin => absurd hin h1⟩
    obtain ⟨s1, s2, s3, s4, s5, s6, s7, s8⟩ := step
    obtain ⟨r1, r2, r3, r4, r5, r6, r7⟩ := ih (fun j' hj' => hjobs j' (by simp [hj'])) st1 s1 s2 s3 h
    refine ⟨r1, r2, r3, fun k hk => r4 k (s4 k hk), fun k hk => r5 k (s5 k hk), ?_, ?_⟩
    · intro b' k hb' hnot
      simp only [List.map_cons, List.mem_cons, not_or] at hnot
      rw [r6 b' k hb' hnot.2]
      apply s6
      rintro rfl
      rw [hb] at hb'
      exact hnot.1 (Option.some.inj hb').symm
    · intro hnd j' hj' b' hb'
      simp only [List.map_cons, List.nodup_cons] at hnd
      simp only [List.mem_cons] at hj'
      rcases hj' with rfl | hj'
      · have hbb : b' = b := by
          have e1 := idxOf_of_getElem? hk hb'
          have e2 := idxOf_of_getElem? hk hb
          simp only [uncJobKey] at e1
          omega
        subst hbb
        have hrest := r6 b' _ hb' hnd.1
        simp only
        constructor
        · intro hn; rw [hrest]; exact s7 hn
        · intro hin
          obtain ⟨wi, ui, e1, e2, e3⟩ := s8 hin
          refine ⟨wi, ui, by rw [hrest]; exact e1, e2, ?_⟩
          intro h34
          obtain ⟨f1, f2, f3, f4⟩ := e3 h34
          exact ⟨f1, r4 _ f2, f3, r5 _ f4⟩
      · obtain ⟨g1, g2⟩ := r7 hnd.2 j' hj' b' hb'
        refine ⟨?_, g2⟩
        intro hn
        rw [g1 hn]
        apply s6
        rintro rfl
        rw [hb] at hb'
        have : uncJobKey j' = uncJobKey (d, i, s, n, c) := (Option.some.inj hb').symm
        exact hnd.1 (List.mem_map.2 ⟨j', hj', this⟩)

end Verif
