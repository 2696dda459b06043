import Verif.Lemmas.Py
import Verif.Model.Reader
import Mathlib.Data.List.Nodup
import Mathlib.Data.List.Basic
import Mathlib.Tactic.Set
/-
Helper lemmas about the index tables built by the reader.
-/
set_option autoImplicit false
namespace Verif
variable {α β γ : Type _}

theorem zip_flatMap (l : List α) (f : α → List β) (g : α → List γ)
    (h : ∀ a ∈ l, (f a).length = (g a).length) :
    (l.flatMap f).zip (l.flatMap g) = l.flatMap (fun a => (f a).zip (g a)) := by
  induction l with
  | nil => rfl
  | cons a l ih =>
    simp only [List.flatMap_cons]
    rw [List.zip_append (h a (by simp)), ih (fun b hb => h b (by simp [hb]))]

theorem filter_flatMap' (l : List α) (f : α → List β) (p : β → Bool) :
    (l.flatMap f).filter p = l.flatMap (fun a => (f a).filter p) := by
  induction l with
  | nil => rfl
  | cons a l ih => simp [List.flatMap_cons, List.filter_append, ih]

theorem zipIdx_flatMap_fst (l : List α) (f : α → List β) (n : Nat) :
    (l.zipIdx n).flatMap (fun p => f p.1) = l.flatMap f := by
  induction l generalizing n with
  | nil => rfl
  | cons a l ih => simp [List.zipIdx_cons, List.flatMap_cons, ih]

theorem map_flatMap' (l : List α) (f : α → List β) (g : β → γ) :
    (l.flatMap f).map g = l.flatMap (fun a => (f a).map g) := by
  induction l with
  | nil => rfl
  | cons a l ih => simp [List.flatMap_cons, ih]

/-- The block list in one comprehension. -/
def blockList (Im : List (Nat × Nat)) (ms : List Nat) (mx : Nat) : List (Nat × Nat × Nat) :=
  (List.range mx).flatMap fun k => Im.zipIdx.flatMap fun pi =>
    ((pairList pi.1).filter (hasCov ms (k + 1))).map fun s => (s, pi.2 + 1, k + 1)

theorem getNSensor_eq (Im : List (Nat × Nat)) (ms : List Nat) (mx : Nat) :
    getNSensor Im ms mx = (blockList Im ms mx).map (·.1) := by
  unfold getNSensor blockList
  simp only [map_flatMap', filter_flatMap', List.map_map, Function.comp_def, List.map_id']
  congr 1; funext k
  rw [zipIdx_flatMap_fst Im (fun p => (pairList p).filter (hasCov ms (k + 1)))]

theorem getNMu_eq (Im : List (Nat × Nat)) (ms : List Nat) (mx : Nat) :
    getNMu Im ms mx = (blockList Im ms mx).map (·.2.1) := by
  unfold getNMu blockList
  simp only [map_flatMap', List.map_map, Function.comp_def]

theorem getNCov_eq (Im : List (Nat × Nat)) (ms : List Nat) (mx : Nat) :
    getNCov Im ms mx = (blockList Im ms mx).map (·.2.2) := by
  unfold getNCov blockList
  simp only [map_flatMap', filter_flatMap', List.map_map, Function.comp_def]
  congr 1; funext k
  rw [zipIdx_flatMap_fst Im (fun p => List.map (fun _ => k + 1) ((pairList p).filter (hasCov ms (k + 1))))]

theorem zip3_map (l : List (α × β × γ)) :
    (l.map (·.1)).zip ((l.map (·.2.1)).zip (l.map (·.2.2))) = l := by
  induction l with
  | nil => rfl
  | cons a l ih => simp [ih]

theorem mem_blockList {Im : List (Nat × Nat)} {ms : List Nat} {mx : Nat} {s i c : Nat} :
    (s, i, c) ∈ blockList Im ms mx ↔
      1 ≤ c ∧ c ≤ mx ∧ c ≤ ms.getD s 0 ∧ 1 ≤ i ∧ ∃ p, Im[i-1]? = some p ∧ (s = p.1 ∨ s = p.2) := by
  unfold blockList
  simp only [List.mem_flatMap, List.mem_range, List.mem_map, List.mem_filter, Prod.mk.injEq,
    Prod.exists, List.mem_zipIdx_iff_getElem?, pairList, hasCov, decide_eq_true_eq, List.mem_cons, List.not_mem_nil,
    or_false]
  constructor
  · rintro ⟨k, hk, a, b, j, hj, s', ⟨hs', hc⟩, rfl, rfl, rfl⟩
    refine ⟨by omega, by omega, hc, by omega, a, b, by simpa using hj, hs'⟩
  · rintro ⟨h1, h2, h3, h4, a, b, hp, hs⟩
    refine ⟨c - 1, by omega, a, b, i - 1, hp, s, ⟨hs, ?_⟩, rfl, by omega, by omega⟩
    rw [show c - 1 + 1 = c by omega]; exact h3

theorem blockList_nodup {Im : List (Nat × Nat)} {ms : List Nat} {mx : Nat}
    (hne : ∀ p ∈ Im, p.1 ≠ p.2) : (blockList Im ms mx).Nodup := by
  unfold blockList
  rw [List.nodup_flatMap]
  constructor
  · intro k _
    rw [List.nodup_flatMap]
    constructor
    · intro pi hpi
      have hp : pi.1 ∈ Im := List.fst_mem_of_mem_zipIdx hpi
      refine List.Nodup.map (fun a b h => by simpa using h) ?_
      exact List.Nodup.filter _ (by simp [pairList, hne _ hp])
    · have : (Im.zipIdx).Pairwise (fun a b => a.2 ≠ b.2) := by
        rw [← List.pairwise_map (f := Prod.snd) (R := fun a b => a ≠ b)]
        simp only [List.zipIdx_map_snd]
        exact List.nodup_range'
      refine this.imp ?_
      intro a b hab x hx hy
      simp only [List.mem_map] at hx hy
      obtain ⟨s, _, rfl⟩ := hx
      obtain ⟨t, _, h⟩ := hy
      simp only [Prod.mk.injEq] at h
      omega
  · refine (List.nodup_range).imp ?_
    intro a b hab x hx hy
    simp only [List.mem_flatMap, List.mem_map] at hx hy
    obtain ⟨_, _, s, _, rfl⟩ := hx
    obtain ⟨_, _, t, _, h⟩ := hy
    simp only [Prod.mk.injEq] at h
    omega

/-! ### sensors -/

theorem sensorStep_fold (sides : List (Side α)) (st : List String × List Nat)
    (hlen : st.1.length = st.2.length) :
    let r := sides.foldl sensorStep st
    r.1.length = r.2.length ∧ (st.1.Nodup → r.1.Nodup) ∧ (∀ n, n ∈ r.1 ↔ n ∈ st.1 ∨ ∃ s ∈ sides, s.name = n) ∧
    st.1 <+: r.1 ∧ st.2 <+: r.2 ∧
    (∀ (i : Nat) (n : String), r.1[i]? = some n → st.1.length ≤ i → ∃ s ∈ sides, s.name = n ∧ r.2[i]? = some s.m) := by
  induction sides generalizing st with
  | nil =>
    refine ⟨hlen, id, by simp, List.prefix_refl _, List.prefix_refl _, ?_⟩
    intro i n h hi
    rw [List.foldl_nil, List.getElem?_eq_none hi] at h; cases h
  | cons s sides ih =>
    simp only [List.foldl_cons]
    by_cases hs : s.name ∈ st.1
    · have e : sensorStep st s = st := by simp [sensorStep, hs]
      rw [e]
      obtain ⟨h1, h2, h3, h4, h5, h6⟩ := ih st hlen
      refine ⟨h1, h2, ?_, h4, h5, ?_⟩
      · intro n
        rw [h3]
        constructor
        · rintro (h | ⟨t, ht, rfl⟩)
          · exact .inl h
          · exact .inr ⟨t, by simp [ht], rfl⟩
        · rintro (h | ⟨t, ht, rfl⟩)
          · exact .inl h
          · simp only [List.mem_cons] at ht
            rcases ht with rfl | ht
            · exact .inl hs
            · exact .inr ⟨t, ht, rfl⟩
      · intro i n hi hle
        obtain ⟨t, ht, hn, hm⟩ := h6 i n hi hle
        exact ⟨t, by simp [ht], hn, hm⟩
    · have e : sensorStep st s = (st.1 ++ [s.name], st.2 ++ [s.m]) := by simp [sensorStep, hs]
      rw [e]
      obtain ⟨h1, h2, h3, h4, h5, h6⟩ := ih (st.1 ++ [s.name], st.2 ++ [s.m]) (by simp [hlen])
      refine ⟨h1, ?_, ?_, (List.prefix_append _ _).trans h4, (List.prefix_append _ _).trans h5, ?_⟩
      · intro hn
        apply h2
        rw [List.nodup_append]
        refine ⟨hn, by simp, ?_⟩
        intro a ha b hb
        simp only [List.mem_singleton] at hb
        subst hb; intro hab; exact hs (hab ▸ ha)
      · intro n
        rw [h3]
        simp only [List.mem_append, List.mem_cons, List.not_mem_nil, or_false]
        constructor
        · rintro ((h | rfl) | ⟨t, ht, rfl⟩)
          · exact .inl h
          · exact .inr ⟨s, .inl rfl, rfl⟩
          · exact .inr ⟨t, .inr ht, rfl⟩
        · rintro (h | ⟨t, rfl | ht, rfl⟩)
          · exact .inl (.inl h)
          · exact .inl (.inr rfl)
          · exact .inr ⟨t, ht, rfl⟩
      · intro i n hi hle
        by_cases hi' : i = st.1.length
        · subst hi'
          have g1 : (sides.foldl sensorStep (st.1 ++ [s.name], st.2 ++ [s.m])).1[st.1.length]? = some s.name := by
            obtain ⟨t, ht⟩ := h4
            rw [← ht]; simp
          have g2 : (sides.foldl sensorStep (st.1 ++ [s.name], st.2 ++ [s.m])).2[st.1.length]? = some s.m := by
            obtain ⟨t, ht⟩ := h5
            rw [← ht]; simp [hlen]
          rw [g1] at hi
          cases hi
          exact ⟨s, by simp, rfl, g2⟩
        · obtain ⟨t, ht, hn, hm⟩ := h6 i n hi (by simp; omega)
          exact ⟨t, by simp [ht], hn, hm⟩

/-- The sensors are the first occurrences of the names. -/
theorem sensorStep_eraseDups (sides : List (Side α)) (st : List String × List Nat) :
    (sides.foldl sensorStep st).1 = st.1 ++ ((sides.map (·.name)).filter (fun n => n ∉ st.1)).eraseDups := by
  induction sides generalizing st with
  | nil => simp
  | cons s sides ih =>
    simp only [List.foldl_cons, List.map_cons]
    by_cases hs : s.name ∈ st.1
    · have e : sensorStep st s = st := by simp [sensorStep, hs]
      rw [e, ih, List.filter_cons_of_neg (by simp [hs])]
    · have e : sensorStep st s = (st.1 ++ [s.name], st.2 ++ [s.m]) := by simp [sensorStep, hs]
      rw [e, ih, List.filter_cons_of_pos (by simp [hs]), List.eraseDups_cons]
      simp only [List.append_assoc, List.singleton_append, List.filter_filter]
      congr 2
      congr 1
      apply List.filter_congr
      intro n _
      simp only [List.mem_append, List.mem_singleton]
      by_cases h1 : n ∈ st.1 <;> by_cases h2 : n = s.name <;> simp [h1, h2]

end Verif

namespace Verif
variable {α β γ : Type _}

theorem mapM_ok_of {f : α → Py β} {g : α → β} : ∀ {l : List α}, (∀ a ∈ l, f a = .ok (g a)) → l.mapM f = .ok (l.map g)
  | [], _ => rfl
  | a :: l, h => by
    rw [List.mapM_cons, h a (by simp), mapM_ok_of (l := l) (fun b hb => h b (by simp [hb]))]
    rfl

theorem foldlM_append_ok {f : β → α → Py β} {l₁ l₂ : List α} {b b' : β} (h : l₁.foldlM f b = .ok b') :
    (l₁ ++ l₂).foldlM f b = l₂.foldlM f b' := by
  rw [List.foldlM_append, h]; rfl

/-- All facts about the index dictionary needed later. -/
structure IdxFacts (ds : List (Dataset α)) (x : Idx) (mx : Nat) : Prop where
  Nm : x.Nm = ds.map (·.M)
  cNm : x.cNm = prefixSums (ds.map (·.M))
  sensors : x.sensors = ((ds.flatMap Dataset.sides).map (·.name)).eraseDups
  sens_nodup : x.sensors.Nodup
  sens_mem : ∀ n, n ∈ x.sensors ↔ ∃ s ∈ ds.flatMap Dataset.sides, s.name = n
  ms_len : x.sensors.length = x.sensor_ms.length
  ms_first : ∀ (i : Nat) (n : String), x.sensors[i]? = some n → ∃ s ∈ ds.flatMap Dataset.sides, s.name = n ∧ x.sensor_ms[i]? = some s.m
  Im : x.Im = ds.map (fun d => (x.sensors.idxOf d.s1.name, x.sensors.idxOf d.s2.name))
  mx_ge : ∀ m ∈ x.sensor_ms, m ≤ mx
  mx_mem : mx ∈ x.sensor_ms
  n_sensor : x.n_sensor = (blockList x.Im x.sensor_ms mx).map (·.1)
  n_mu : x.n_mu = (blockList x.Im x.sensor_ms mx).map (·.2.1)
  n_cov : x.n_cov = (blockList x.Im x.sensor_ms mx).map (·.2.2)
  N_var : x.N_var = x.n_mu.map (fun n => (ds.map (·.M)).getD (n - 1) 0)
  idx : x.idx = prefixSums x.N_var

theorem mem_sides {ds : List (Dataset α)} {s : Side α} :
    s ∈ ds.flatMap Dataset.sides ↔ ∃ d ∈ ds, s = d.s1 ∨ s = d.s2 := by
  simp [Dataset.sides]

theorem getSensors_facts (ds : List (Dataset α)) :
    let r := getSensors ds
    r.1 = ((ds.flatMap Dataset.sides).map (·.name)).eraseDups ∧ r.1.Nodup ∧
    (∀ n, n ∈ r.1 ↔ ∃ s ∈ ds.flatMap Dataset.sides, s.name = n) ∧ r.1.length = r.2.length ∧
    (∀ (i : Nat) (n : String), r.1[i]? = some n → ∃ s ∈ ds.flatMap Dataset.sides, s.name = n ∧ r.2[i]? = some s.m) := by
  have h := sensorStep_fold (ds.flatMap Dataset.sides) ([], []) rfl
  have he := sensorStep_eraseDups (ds.flatMap Dataset.sides) ([], [])
  simp only [List.nodup_nil, forall_const, List.not_mem_nil, false_or, List.length_nil, Nat.zero_le, forall_const] at h
  refine ⟨?_, h.2.1, h.2.2.1, h.1, ?_⟩
  · simpa [getSensors] using he
  · intro i n hi
    exact h.2.2.2.2.2 i n hi

theorem getIdx_facts {ds : List (Dataset α)} (hne : ds ≠ []) : ∃ x mx, getIdx ds = .ok x ∧ IdxFacts ds x mx := by
  obtain ⟨h1, h2, h3, h4, h5⟩ := getSensors_facts ds
  obtain ⟨d, hd⟩ := List.exists_mem_of_ne_nil ds hne
  have hmem : ∀ d ∈ ds, d.s1.name ∈ (getSensors ds).1 ∧ d.s2.name ∈ (getSensors ds).1 := by
    intro d hd
    exact ⟨(h3 _).2 ⟨d.s1, mem_sides.2 ⟨d, hd, .inl rfl⟩, rfl⟩, (h3 _).2 ⟨d.s2, mem_sides.2 ⟨d, hd, .inr rfl⟩, rfl⟩⟩
  have hIm : getIm ds (getSensors ds).1 = .ok (ds.map (fun d =>
      ((getSensors ds).1.idxOf d.s1.name, (getSensors ds).1.idxOf d.s2.name))) := by
    unfold getIm
    apply mapM_ok_of
    intro d hd
    rw [pyIndex_of_mem (hmem d hd).1, pyIndex_of_mem (hmem d hd).2]
    rfl
  have hms : (getSensors ds).2 ≠ [] := by
    intro h0
    have : (getSensors ds).1.length = 0 := by rw [h4, h0]; rfl
    have := List.length_pos_of_mem (hmem d hd).1
    omega
  obtain ⟨mx, hmx⟩ : ∃ mx, pyMax (getSensors ds).2 = .ok mx := by
    cases h : (getSensors ds).2 with
    | nil => exact absurd h hms
    | cons a l => exact ⟨_, rfl⟩
  have hmx' := pyMax_ok hmx
  set Im := ds.map (fun d => ((getSensors ds).1.idxOf d.s1.name, (getSensors ds).1.idxOf d.s2.name)) with hImdef
  have hNV : getNVar (getNm ds) (getNMu Im (getSensors ds).2 mx) =
      .ok ((getNMu Im (getSensors ds).2 mx).map (fun n => (ds.map (·.M)).getD (n - 1) 0)) := by
    unfold getNVar
    apply mapM_ok_of
    intro n hn
    rw [getNMu_eq] at hn
    obtain ⟨⟨s, i, c⟩, hb, rfl⟩ := List.mem_map.1 hn
    obtain ⟨_, _, _, hi, p, hp, _⟩ := mem_blockList.1 hb
    have : i - 1 < ds.length := by
      have := (List.getElem?_eq_some_iff.1 hp).1
      simpa [hImdef] using this
    unfold pyGet getNm
    simp [List.getElem?_map, List.getElem?_eq_getElem this, List.getD]
  refine ⟨{ Nm := getNm ds, cNm := getCNm ds, Im := Im, sensors := (getSensors ds).1, sensor_ms := (getSensors ds).2,
            n_sensor := getNSensor Im (getSensors ds).2 mx, n_mu := getNMu Im (getSensors ds).2 mx,
            n_cov := getNCov Im (getSensors ds).2 mx,
            N_var := (getNMu Im (getSensors ds).2 mx).map (fun n => (ds.map (·.M)).getD (n - 1) 0),
            idx := prefixSums ((getNMu Im (getSensors ds).2 mx).map (fun n => (ds.map (·.M)).getD (n - 1) 0)) },
          mx, ?_, ?_⟩
  · unfold getIdx
    simp only [hIm, hmx, hNV, bind, Except.bind, pure, Except.pure]
  · constructor
    all_goals first
      | rfl
      | exact h1
      | exact h2
      | exact h3
      | exact h4
      | exact h5
      | exact hmx'.1
      | exact hmx'.2
      | exact getNSensor_eq _ _ _
      | exact getNMu_eq _ _ _
      | exact getNCov_eq _ _ _

theorem IdxFacts.blocks {ds : List (Dataset α)} {x : Idx} {mx : Nat} (h : IdxFacts ds x mx) :
    x.blocks = blockList x.Im x.sensor_ms mx := by
  unfold Idx.blocks
  rw [h.n_sensor, h.n_mu, h.n_cov, zip3_map]

theorem IdxFacts.Im_length {ds : List (Dataset α)} {x : Idx} {mx : Nat} (h : IdxFacts ds x mx) :
    x.Im.length = ds.length := by rw [h.Im]; simp

theorem IdxFacts.sens_lookup {ds : List (Dataset α)} {x : Idx} {mx : Nat} (h : IdxFacts ds x mx) {s : Side α}
    (hs : s ∈ ds.flatMap Dataset.sides) : x.sensors[x.sensors.idxOf s.name]? = some s.name := by
  have : s.name ∈ x.sensors := (h.sens_mem _).2 ⟨s, hs, rfl⟩
  rw [List.getElem?_eq_getElem (List.idxOf_lt_length_of_mem this)]; simp

theorem IdxFacts.ms_le {ds : List (Dataset α)} {x : Idx} {mx : Nat} (h : IdxFacts ds x mx) (s : Nat) :
    x.sensor_ms.getD s 0 ≤ mx := by
  rw [List.getD]
  cases hm : x.sensor_ms[s]? with
  | none => simp
  | some m => exact h.mx_ge m (List.mem_of_getElem? hm)

end Verif
