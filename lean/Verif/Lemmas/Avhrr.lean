import Verif.Spec.Avhrr
import Verif.Props.Writer
import Verif.Props.MWTool
import Verif.Lemmas.GNVec
/-
Lemmas for property C75: dictionaries, kept rows, and matrices for rows of scan-line uncertainties.
-/
set_option autoImplicit false
namespace Verif
variable {α : Type}

/-! ### Dictionaries -/

/-- The value of a key. -/
def lookupVar {β : Type} (d : List (String × β)) (n : String) : Option β := (d.find? (fun e => e.1 == n)).map (·.2)

theorem dictGet_ok {β : Type} {d : List (String × β)} {n : String} {x : β} (h : lookupVar d n = some x) : dictGet d n = .ok x := by
  unfold lookupVar at h
  obtain ⟨e, he, rfl⟩ := Option.map_eq_some_iff.1 h
  unfold dictGet; rw [he]

theorem dictGet_none {β : Type} {d : List (String × β)} {n : String} (h : lookupVar d n = none) : dictGet d n = .error .keyError := by
  unfold lookupVar at h
  rw [Option.map_eq_none_iff] at h
  unfold dictGet; rw [h]

theorem lookupVar_isSome {β : Type} : ∀ {d : List (String × β)} {n : String}, n ∈ d.map (·.1) ↔ ∃ x, lookupVar d n = some x
  | [], n => by simp [lookupVar]
  | e :: d, n => by
    unfold lookupVar
    by_cases h : e.1 = n
    · simp [h]
    · rw [List.find?_cons_of_neg (by simpa using h)]
      have := lookupVar_isSome (d := d) (n := n)
      unfold lookupVar at this
      rw [← this]
      simp [Ne.symm h]

theorem lookupVar_map {β : Type} (n : String) (x : β) : ∀ (d : List (String × β)) (m : String),
    lookupVar (d.map fun e => if e.1 = n then (n, x) else e) m = if m = n then (if n ∈ d.map (·.1) then some x else none) else lookupVar d m
  | [], m => by simp [lookupVar]
  | e :: d, m => by
    have ih := lookupVar_map n x d m
    unfold lookupVar at ih ⊢
    rw [List.map_cons]
    by_cases h : e.1 = n
    · rw [if_pos h]
      by_cases hm : m = n
      · subst hm
        simp [h]
      · rw [List.find?_cons_of_neg (by simpa using Ne.symm hm), ih, if_neg hm, if_neg hm, List.find?_cons_of_neg (by rw [h]; simpa using Ne.symm hm)]
    · rw [if_neg h]
      by_cases he : e.1 = m
      · have hm : m ≠ n := by rintro rfl; exact h he
        simp [he, hm]
      · rw [List.find?_cons_of_neg (by simpa using he), ih, List.find?_cons_of_neg (by simpa using he)]
        have : (n ∈ (e :: d).map (·.1)) ↔ n ∈ d.map (·.1) := by simp [Ne.symm h]
        simp only [this]

theorem lookupVar_set {β : Type} (d : List (String × β)) (n m : String) (x : β) : lookupVar (dictSet d n x) m = if m = n then some x else lookupVar d m := by
  unfold dictSet
  split
  · rename_i h
    rw [lookupVar_map, if_pos h]
  · rename_i h
    unfold lookupVar
    rw [List.find?_append]
    by_cases hm : m = n
    · subst hm
      rw [if_pos rfl, List.find?_eq_none.2]
      · simp
      · intro e he hx
        exact h (List.mem_map.2 ⟨e, he, by simpa using hx⟩)
    · rw [if_neg hm, List.find?_cons_of_neg (by simpa using Ne.symm hm)]
      simp

theorem lookupVar_filter {β : Type} (n : String) : ∀ (d : List (String × β)) (m : String),
    lookupVar (d.filter fun e => e.1 != n) m = if m = n then none else lookupVar d m
  | [], m => by simp [lookupVar]
  | e :: d, m => by
    have ih := lookupVar_filter n d m
    unfold lookupVar at ih ⊢
    by_cases h : e.1 = n
    · rw [List.filter_cons_of_neg (by simp [h]), ih]
      by_cases hm : m = n
      · simp [hm]
      · rw [if_neg hm, if_neg hm, List.find?_cons_of_neg (by rw [h]; simpa using Ne.symm hm)]
    · rw [List.filter_cons_of_pos (by simpa using h)]
      by_cases he : e.1 = m
      · have hm : m ≠ n := by rintro rfl; exact h he
        simp [he, hm]
      · rw [List.find?_cons_of_neg (by simpa using he), ih, List.find?_cons_of_neg (by simpa using he)]

theorem renameBT_ok {d : List (String × List α)} {n : String} {x : List α} (h : lookupVar d n = some x) :
    ∃ d', renameBT d n = .ok d' ∧ ∀ m, lookupVar d' m = if m = dropBand n then some x else if m = n then none else lookupVar d m := by
  refine ⟨_, bind_ok.2 ⟨_, dictGet_ok h, rfl⟩, fun m => ?_⟩
  rw [lookupVar_set, lookupVar_filter]

theorem lookupVar_mem {β : Type} {d : List (String × β)} (hn : (d.map (·.1)).Nodup) {n : String} {x : β} : (n, x) ∈ d ↔ lookupVar d n = some x := by
  refine ⟨fun h => find_nodup hn h, fun h => ?_⟩
  unfold lookupVar at h
  obtain ⟨e, he, rfl⟩ := Option.map_eq_some_iff.1 h
  have h1 := List.find?_some he
  have h2 := List.mem_of_find?_eq_some he
  simp only [beq_iff_eq] at h1
  subst h1
  exact h2

/-- `"BT" in name`. -/
theorem hasBT_iff : ∀ (l : List Char), hasBT l = true ↔ ['B', 'T'] <:+: l
  | [] => by simp [hasBT]
  | [c] => by
    have : hasBT [c] = false := by
      unfold hasBT
      split <;> simp_all [hasBT]
    rw [this]
    simp only [Bool.false_eq_true, false_iff]
    rintro ⟨s, t, h⟩
    have := congrArg List.length h
    simp at this
    omega
  | c :: c' :: l => by
    by_cases h : c = 'B' ∧ c' = 'T'
    · obtain ⟨rfl, rfl⟩ := h
      simp only [hasBT, true_iff]
      exact ⟨[], l, rfl⟩
    · have e : hasBT (c :: c' :: l) = hasBT (c' :: l) := by
        conv_lhs => unfold hasBT
        split
        · rename_i heq
          simp only [List.cons.injEq] at heq
          exact absurd ⟨heq.1, heq.2.1⟩ h
        · rename_i heq
          simp only [List.cons.injEq] at heq
          obtain ⟨_, rfl⟩ := heq
          rfl
        · simp at *
      rw [e, hasBT_iff (c' :: l)]
      constructor
      · rintro ⟨s, t, h'⟩
        exact ⟨c :: s, t, by simp [← h']⟩
      · rintro ⟨s, t, h'⟩
        rcases s with _ | ⟨x, s⟩
        · simp only [List.nil_append, List.cons_append, List.cons.injEq] at h'
          exact absurd ⟨h'.1.symm, h'.2.1.symm⟩ h
        · simp only [List.cons_append, List.cons.injEq] at h'
          exact ⟨s, t, h'.2⟩

/-- A list without repetitions of one element and possibly another. -/
theorem two_cases {β : Type} {l : List β} {a b : β} (hn : l.Nodup) (ha : a ∈ l) (h : ∀ x ∈ l, x = a ∨ x = b) (hab : a ≠ b) :
    (b ∉ l ∧ l = [a]) ∨ (b ∈ l ∧ (l = [a, b] ∨ l = [b, a])) := by
  rcases l with _ | ⟨x, _ | ⟨y, _ | ⟨z, l⟩⟩⟩
  · simp at ha
  · simp at ha; subst ha; left; simp [Ne.symm hab]
  · right
    simp only [List.nodup_cons, List.mem_cons, List.not_mem_nil, or_false] at hn
    have hx := h x (by simp)
    have hy := h y (by simp)
    rcases hx with rfl | rfl <;> rcases hy with rfl | rfl <;> simp_all
  · have hx := h x (by simp)
    have hy := h y (by simp)
    have hz := h z (by simp)
    simp only [List.nodup_cons, List.mem_cons, not_or] at hn
    rcases hx with rfl | rfl <;> rcases hy with rfl | rfl <;> rcases hz with rfl | rfl <;> simp_all

theorem getNewName_ok {i : Int} {n : String} (h : (i, n) ∈ avhrrNames) : getNewName i = some n := by
  have : ∀ e ∈ avhrrNames, getNewName e.1 = some e.2 := by decide +kernel
  exact this (i, n) h

theorem band_facts {b : String} (h : b = "37" ∨ b = "11" ∨ b = "12") :
    dropBand ("BT" ++ b) = "BT" ∧ dropBand ("ref_BT" ++ b) = "ref_BT" ∧ "BT" ++ b ≠ "ref_BT" ++ b ∧ hasBT ("BT" ++ b).toList = true ∧ hasBT ("ref_BT" ++ b).toList = true ∧
    (∃ k, bandOfName ("BT" ++ b) = .ok k) ∧ (∃ k, bandOfName ("ref_BT" ++ b) = .ok k) ∧ "BT" ≠ "BT" ++ b ∧ "BT" ≠ "ref_BT" ++ b ∧ "ref_BT" ≠ "BT" ++ b ∧ "ref_BT" ≠ "ref_BT" ++ b ∧
    (∀ e ∈ avhrrRenamed, e.1 ≠ "BT" ++ b ∧ e.1 ≠ "ref_BT" ++ b) := by
  rcases h with rfl | rfl | rfl
  · refine ⟨?_, ?_, ?_, ?_, ?_, ⟨37, ?_⟩, ⟨37, ?_⟩, ?_⟩ <;> decide +kernel
  · refine ⟨?_, ?_, ?_, ?_, ?_, ⟨11, ?_⟩, ⟨11, ?_⟩, ?_⟩ <;> decide +kernel
  · refine ⟨?_, ?_, ?_, ?_, ?_, ⟨12, ?_⟩, ⟨12, ?_⟩, ?_⟩ <;> decide +kernel

/-- The dictionary after renaming and with the radiances. -/
theorem avhrrVariables_ok [NatCast α] {conv : Option String → List α → Py (List α)} {raw : AvhrrRaw α} {n1 n2 band : String} {k1 k2 : Nat} (h : raw.Usable n1 n2 band k1 k2)
    (hc : ∀ n ∈ [n1, n2], ∀ x, ∃ y, conv (some n) x = .ok y) : ∃ b vars, avhrrVariables conv raw = .ok (b, vars) ∧
      lookupVar vars "original_indices" = some ((List.range raw.M).map fun (i : Nat) => (i : α)) ∧
      (∀ e ∈ avhrrRenamed, e.1 ≠ "original_indices" → lookupVar vars e.1 = lookupVar raw.vars (rawName band e.1)) ∧
      (∀ m, m ∉ avhrrRenamed.map (·.1) → m ≠ "nominal_measurand1" → m ≠ "nominal_measurand2" → lookupVar vars m = none ∨ lookupVar vars m = lookupVar raw.vars m) ∧
      (lookupVar vars ("BT" ++ band) = none) := by
  obtain ⟨f1, f2, f3, f4, f5, ⟨b1, f6⟩, ⟨b2, f7⟩, g1, g2, g3, g4, f8⟩ := band_facts h.infrared
  set B := "BT" ++ band with hB
  set R := "ref_BT" ++ band with hR
  have hbt := h.bt
  have honly := h.onlyBt
  rw [← hB] at hbt
  rw [← hB, ← hR] at honly
  clear_value B R
  obtain ⟨xB, hxB⟩ := lookupVar_isSome.1 hbt
  have hBR : ("BT" : String) ≠ "ref_BT" := by decide +kernel
  -- the renamed dictionary
  have main : ∃ b0 band' vars1, pyGet ((raw.vars.map (·.1)).filter fun n => hasBT n.toList) 0 = .ok b0 ∧ bandOfName b0 = .ok band' ∧
      ((raw.vars.map (·.1)).filter fun n => hasBT n.toList).foldlM renameBT raw.vars = .ok vars1 ∧
      ∀ m, lookupVar vars1 m = if m = "BT" then some xB else if m = "ref_BT" then lookupVar raw.vars R else if m = B ∨ m = R then none else lookupVar raw.vars m := by
    have hmemf : ∀ n, n ∈ ((raw.vars.map (·.1)).filter fun n => hasBT n.toList) ↔ n ∈ raw.vars.map (·.1) ∧ hasBT n.toList = true := fun n => List.mem_filter
    have hno : ∀ n, n ≠ B → n ≠ R → hasBT n.toList = true → lookupVar raw.vars n = none := by
      intro n h1 h2 h3
      by_contra hx
      obtain ⟨x, hx⟩ := Option.ne_none_iff_exists'.1 hx
      rcases honly n (lookupVar_isSome.2 ⟨x, hx⟩) ((hasBT_iff _).1 h3) with h | h
      · exact h1 h
      · exact h2 h
    have hBT0 : lookupVar raw.vars "BT" = none := hno _ g1 g2 (by decide +kernel)
    have hRT0 : lookupVar raw.vars "ref_BT" = none := hno _ g3 g4 (by decide +kernel)
    rcases two_cases (h.names.filter _) ((hmemf B).2 ⟨hbt, f4⟩) (b := R) (by
      intro x hx
      exact honly x ((hmemf x).1 hx).1 ((hasBT_iff _).1 ((hmemf x).1 hx).2)) f3 with ⟨hnR, e⟩ | ⟨hR', e⟩
    · obtain ⟨d', hd', hl⟩ := renameBT_ok hxB
      have hRn : lookupVar raw.vars R = none := by
        by_contra hx
        obtain ⟨x, hx⟩ := Option.ne_none_iff_exists'.1 hx
        exact hnR ((hmemf R).2 ⟨lookupVar_isSome.2 ⟨x, hx⟩, f5⟩)
      refine ⟨B, b1, d', by rw [e]; rfl, f6, by rw [e, List.foldlM_cons, hd']; rfl, fun m => ?_⟩
      rw [hl, f1]
      by_cases m1 : m = "BT"
      · simp [m1]
      rw [if_neg m1, if_neg m1]
      by_cases m2 : m = "ref_BT"
      · rw [if_pos m2, hRn, m2, if_neg g3, hRT0]
      rw [if_neg m2]
      by_cases m3 : m = B
      · simp [m3]
      by_cases m4 : m = R
      · simp [m4, hRn]
      simp [m3, m4]
    · obtain ⟨xR, hxR⟩ := lookupVar_isSome.1 ((hmemf R).1 hR').1
      rcases e with e | e
      · obtain ⟨d', hd', hl⟩ := renameBT_ok hxB
        have hxR' : lookupVar d' R = some xR := by rw [hl, f1, if_neg (Ne.symm g2), if_neg (Ne.symm f3), hxR]
        obtain ⟨d'', hd'', hl'⟩ := renameBT_ok hxR'
        refine ⟨B, b1, d'', by rw [e]; rfl, f6, by rw [e, List.foldlM_cons, hd']; show (List.foldlM renameBT d' [R]) = _; rw [List.foldlM_cons, hd'']; rfl, fun m => ?_⟩
        rw [hl', f2, hl, f1, hxR]
        by_cases m1 : m = "BT"
        · simp [m1, hBR, g2]
        by_cases m2 : m = "ref_BT"
        · simp [m2, Ne.symm hBR]
        by_cases m3 : m = B
        · simp [m3, f3, Ne.symm g3, Ne.symm g1]
        by_cases m4 : m = R
        · simp [m4, Ne.symm g4, Ne.symm g2]
        simp [m1, m2, m3, m4]
      · obtain ⟨d', hd', hl⟩ := renameBT_ok hxR
        have hxB' : lookupVar d' B = some xB := by rw [hl, f2, if_neg (Ne.symm g3), if_neg f3, hxB]
        obtain ⟨d'', hd'', hl'⟩ := renameBT_ok hxB'
        refine ⟨R, b2, d'', by rw [e]; rfl, f7, by rw [e, List.foldlM_cons, hd']; show (List.foldlM renameBT d' [B]) = _; rw [List.foldlM_cons, hd'']; rfl, fun m => ?_⟩
        rw [hl', f1, hl, f2, hxR]
        by_cases m1 : m = "BT"
        · simp [m1]
        by_cases m2 : m = "ref_BT"
        · simp [m2, Ne.symm hBR, g3]
        by_cases m3 : m = B
        · simp [m3, Ne.symm g3, Ne.symm g1]
        by_cases m4 : m = R
        · simp [m4, Ne.symm g4, Ne.symm g2, Ne.symm f3]
        simp [m1, m2, m3, m4]
  obtain ⟨b0, band', vars1, h0, hb, hv1, hl1⟩ := main
  set vars2 := dictSet vars1 "original_indices" ((List.range raw.M).map fun (i : Nat) => (i : α)) with hv2
  have hl2 : ∀ m, lookupVar vars2 m = if m = "original_indices" then some ((List.range raw.M).map fun (i : Nat) => (i : α)) else lookupVar vars1 m := fun m => lookupVar_set _ _ _ _
  have hBo : B ≠ "original_indices" := (f8 ("original_indices", "original_indices") (by decide +kernel)).1.symm
  have hBTo : ("BT" : String) ≠ "original_indices" := by decide +kernel
  have facts : lookupVar vars2 "original_indices" = some ((List.range raw.M).map fun (i : Nat) => (i : α)) ∧
      (∀ e ∈ avhrrRenamed, e.1 ≠ "original_indices" → lookupVar vars2 e.1 = lookupVar raw.vars (rawName band e.1)) ∧
      (∀ m, m ∉ avhrrRenamed.map (·.1) → lookupVar vars2 m = none ∨ lookupVar vars2 m = lookupVar raw.vars m) ∧ lookupVar vars2 B = none := by
    refine ⟨by rw [hl2, if_pos rfl], fun e he hne => ?_, fun m hm => ?_, ?_⟩
    · rw [hl2, if_neg hne, hl1]
      unfold rawName
      by_cases m1 : e.1 = "BT"
      · rw [if_pos m1, if_pos (.inl m1), m1, ← hB, hxB]
      by_cases m2 : e.1 = "ref_BT"
      · rw [if_neg m1, if_pos m2, if_pos (.inr m2), m2, ← hR]
      · rw [if_neg m1, if_neg m2, if_neg (by rintro (h | h); exact (f8 e he).1 h; exact (f8 e he).2 h), if_neg (by rintro (h | h); exact m1 h; exact m2 h)]
    · have hmo : m ≠ "original_indices" := by rintro rfl; exact hm (by decide +kernel)
      have hm1 : m ≠ "BT" := by rintro rfl; exact hm (by decide +kernel)
      have hm2 : m ≠ "ref_BT" := by rintro rfl; exact hm (by decide +kernel)
      rw [hl2, if_neg hmo, hl1, if_neg hm1, if_neg hm2]
      split
      · exact .inl rfl
      · exact .inr rfl
    · rw [hl2, if_neg hBo, hl1, if_neg (Ne.symm g1), if_neg (Ne.symm g3), if_pos (.inl rfl)]
  have hren : ∀ e ∈ avhrrRenamed, e.1 ≠ "nominal_measurand1" ∧ e.1 ≠ "nominal_measurand2" := by decide +kernel
  rcases hf : vars2.find? (fun e => e.1 == "ref_BT") with _ | ref
  · refine ⟨band', vars2, bind_ok.2 ⟨_, h0, bind_ok.2 ⟨_, hb, bind_ok.2 ⟨_, hv1, ?_⟩⟩⟩, facts.1, facts.2.1, fun m hm _ _ => facts.2.2.1 m hm, facts.2.2.2⟩
    simp only [← hv2, hf]
    rfl
  · obtain ⟨y1, hy1⟩ := hc n1 (by simp) ref.2
    obtain ⟨y2, hy2⟩ := hc n2 (by simp) xB
    have hbt' : dictGet vars2 "BT" = .ok xB := dictGet_ok (by rw [hl2, if_neg hBTo, hl1, if_pos rfl])
    have hB1 : B ≠ "nominal_measurand1" ∧ B ≠ "nominal_measurand2" := by
      rw [hB]
      rcases h.infrared with e | e | e <;> rw [e] <;> decide +kernel
    have hl3 : ∀ m, m ≠ "nominal_measurand1" → m ≠ "nominal_measurand2" →
        lookupVar (dictSet (dictSet vars2 "nominal_measurand1" y1) "nominal_measurand2" y2) m = lookupVar vars2 m := by
      intro m h1 h2
      rw [lookupVar_set, if_neg h2, lookupVar_set, if_neg h1]
    refine ⟨band', dictSet (dictSet vars2 "nominal_measurand1" y1) "nominal_measurand2" y2, bind_ok.2 ⟨_, h0, bind_ok.2 ⟨_, hb, bind_ok.2 ⟨_, hv1, ?_⟩⟩⟩, ?_, ?_, ?_, ?_⟩
    · simp only [← hv2, hf]
      rw [getNewName_ok h.name1, getNewName_ok h.name2]
      exact bind_ok.2 ⟨y1, hy1, bind_ok.2 ⟨_, hbt', bind_ok.2 ⟨y2, hy2, rfl⟩⟩⟩
    · rw [hl3 _ (by decide +kernel) (by decide +kernel)]; exact facts.1
    · intro e he hne
      rw [hl3 _ (hren e he).1 (hren e he).2]; exact facts.2.1 e he hne
    · intro m hm h1 h2
      rw [hl3 m h1 h2]; exact facts.2.2.1 m hm
    · rw [hl3 _ hB1.1 hB1.2]; exact facts.2.2.2

/-! ### Kept rows -/

theorem hasNan_iff {row : List (Option α)} : hasNan row = true ↔ none ∈ row := by
  unfold hasNan
  rw [List.any_eq_true]
  constructor
  · rintro ⟨x, hx, h⟩
    rw [Option.isNone_iff_eq_none] at h
    exact h ▸ hx
  · exact fun h => ⟨none, h, rfl⟩

theorem kept_ok {raw : AvhrrRaw α} {n1 n2 band : String} {k1 k2 : Nat} (h : raw.Usable n1 n2 band k1 k2) :
    raw.Kept (keptRows (avhrrValid raw.uS1 raw.uI1 raw.uS2 raw.uI2)) := by
  have hl : raw.uS1.length = raw.M := h.rows _ (by simp)
  refine ⟨List.Pairwise.filter _ List.pairwise_lt_range, fun r => ?_⟩
  unfold keptRows
  rw [List.mem_filter, List.mem_range]
  unfold avhrrValid
  rw [List.length_map, List.length_range, hl]
  refine and_congr_right fun hr => ?_
  rw [List.getD_eq_getElem?_getD, List.getElem?_map, List.getElem?_range hr]
  have e : ∀ row : List (Option α), hasNan row = false ↔ none ∉ row := by
    intro row
    rw [← Bool.not_eq_true, hasNan_iff]
  simp [e]
  tauto

/-! ### Matrices for rows of scan-line uncertainties -/

section
variable [Field α] [LinearOrder α] [IsStrictOrderedRing α] [FloorRing α]

omit [LinearOrder α] [IsStrictOrderedRing α] [FloorRing α] in
theorem CSR.RollingAverage.scan_unique {w : CSR α} {pos : List Nat} {wts : List α} {scan scan' : List Nat} (h : w.RollingAverage pos wts scan) (h' : w.RollingAverage pos wts scan') :
    scan = scan' := by
  have key : ∀ {s s' : List Nat}, w.RollingAverage pos wts s → w.RollingAverage pos wts s' → ∀ q ∈ s, q ∈ s' := by
    intro s s' hs hs' q hq
    obtain ⟨c, hc⟩ := List.mem_iff_getElem?.1 hq
    obtain ⟨i, hi, hd⟩ := hs.used c (by rw [← hs.cols]; exact (List.getElem?_eq_some_iff.1 hc).1)
    rw [hs.rows] at hi
    have hp : pos[i]? = some pos[i] := List.getElem?_eq_getElem hi
    rw [hs.weight i _ c q hp hc] at hd
    exact hs'.complete _ q (List.getElem_mem _) hd
  refine List.Perm.eq_of_pairwise (le := (· < ·)) (fun a b _ _ h1 h2 => absurd h1 (Nat.lt_asymm h2)) h.increasing h'.increasing ?_
  exact (List.perm_ext_iff_of_nodup (h.increasing.imp Nat.ne_of_lt) (h'.increasing.imp Nat.ne_of_lt)).2 fun q => ⟨key h h' q, key h' h q⟩

/-- With rows of uncertainties, the matrix does not depend on them. -/
theorem generate_rows {times : List α} {s : α} {k : Nat} (ht : times ≠ []) (hs : 1 / 100 < s) (hk : 0 < k) :
    ∃ w pos scan, ScanLines s times pos ∧ w.WellFormed ∧ w.Shape ∧ w.RollingAverage pos (List.replicate k (1 / (k : α))) scan ∧
      ∀ r : List (List α), r.length = times.length → (∀ x ∈ r, x.length = k) → ∃ u, generateRollingAverage times s (.rows r) none none = .ok (w, u) ∧ u.length = w.ncols ∧
        ∀ u0, ScanLineUnc r pos u0 → u = scan.map u0 := by
  obtain ⟨pos, hp, hsl⟩ := columnPositions_ok hs ht
  have hl := hsl.length
  have hne : pos ≠ [] := by rintro rfl; exact ht (List.length_eq_zero_iff.1 (by simpa using hl.symm))
  have hwk : List.replicate k (1 / (k : α)) ≠ [] := by intro h; have := congrArg List.length h; simp at this; omega
  -- a row of the right length to name the matrix
  have hgen : ∀ r : List (List α), r.length = times.length → (∀ x ∈ r, x.length = k) → ∃ u, ∃ w0 : CSR α, ∃ n,
      w0 = csrOfRows (rollingRows pos k (pos.map fun _ => List.replicate k (1 / (k : α)))) n ∧ generateRollingAverage times s (.rows r) none none = .ok (w0.selectColumns w0.usedColumns, u) ∧
      u.length = (w0.selectColumns w0.usedColumns).ncols ∧ rollingCSR pos k (pos.map fun _ => List.replicate k (1 / (k : α))) = .ok w0 := by
    intro r hr hx
    have hw : (KernelUnc.rows r : KernelUnc α).Weights none none (List.replicate k (1 / (k : α))) := by
      have h0 : 0 < r.length := by rw [hr, ← hl]; exact List.length_pos_iff.2 hne
      exact .inr ⟨rfl, k, rfl, .inr ⟨rfl, r, r[0], rfl, List.getElem?_eq_getElem h0, hx _ (List.getElem_mem _)⟩⟩
    have hu : (KernelUnc.rows r : KernelUnc α).Usable pos.length (List.replicate k (1 / (k : α))).length :=
      ⟨by rw [hr, hl], fun i x _ hi => by rw [List.length_replicate]; exact hx x (List.mem_of_getElem? hi)⟩
    obtain ⟨n, h1, h2, h3⟩ := rolling_select (pos := pos) (wts := List.replicate k (1 / (k : α))) hne hwk
    rw [List.length_replicate] at h1 h2 h3
    have hm : (List.range pos.length).mapM (pyGet r) = .ok r := by
      rw [mapM_ok_of (g := fun i => r.getD i [])]
      · congr 1
        apply List.ext_getElem
        · simp [hl, hr]
        · intro i _ h2
          simp [List.getD, List.getElem?_eq_getElem h2]
      · intro i hi
        have : i < r.length := by simp at hi; omega
        simp [pyGet, List.getD, this]
    have hr2 := h2 r (by omega) hx
    refine ⟨((csrOfRows (rollingRows pos k r) n).selectColumns (csrOfRows (rollingRows pos k (pos.map fun _ => List.replicate k (1 / (k : α)))) n).usedColumns).columnMax,
      _, n, rfl, bind_ok.2 ⟨_, kernelWeights_ok hw, bind_ok.2 ⟨_, hp, ?_⟩⟩, ?_, h1⟩
    · simp only [List.length_replicate]
      exact bind_ok.2 ⟨_, h1, bind_ok.2 ⟨_, hm, bind_ok.2 ⟨_, hr2, rfl⟩⟩⟩
    · rw [selectColumns_eq, selectColumns_eq]; simp [CSR.columnMax, csrOfRows]
  obtain ⟨u, w0, n, e, hg, _, hroll⟩ := hgen (List.replicate times.length (List.replicate k 0)) (by simp) (by simp +contextual)
  obtain ⟨n', h1, _, h3⟩ := rolling_select (pos := pos) (wts := List.replicate k (1 / (k : α))) hne hwk
  rw [List.length_replicate] at h1 h3
  rw [hroll] at h1
  have hra := h3 w0 (Except.ok.inj h1)
  have hshape : (w0.selectColumns w0.usedColumns).WellFormed ∧ (w0.selectColumns w0.usedColumns).Shape := by
    have hss := select_shape (rollingRows pos k (pos.map fun _ => List.replicate k (1 / (k : α)))) w0.usedColumns n
    rw [← e] at hss
    exact ⟨hss.2, hss.1⟩
  refine ⟨_, pos, _, hsl, hshape.1, hshape.2, hra, fun r hr hx => ?_⟩
  obtain ⟨u', w0', n'', _, hg', hlen, hroll'⟩ := hgen r hr hx
  rw [hroll] at hroll'
  obtain rfl := Except.ok.inj hroll'
  refine ⟨u', hg', hlen, fun u0 hu0 => ?_⟩
  have hw : (KernelUnc.rows r : KernelUnc α).Weights none none (List.replicate k (1 / (k : α))) := by
    have h0 : 0 < r.length := by rw [hr, ← hl]; exact List.length_pos_iff.2 hne
    exact .inr ⟨rfl, k, rfl, .inr ⟨rfl, r, r[0], rfl, List.getElem?_eq_getElem h0, hx _ (List.getElem_mem _)⟩⟩
  have hu : (KernelUnc.rows r : KernelUnc α).Usable pos.length (List.replicate k (1 / (k : α))).length :=
    ⟨by rw [hr, hl], fun i x _ hi => by rw [List.length_replicate]; exact hx x (List.mem_of_getElem? hi)⟩
  obtain ⟨w, u, scan, hg2, _, _, hra2, hus⟩ := generate_u hw hwk hp hne hu (u0 := u0) (by
    refine ⟨hu0.1, fun i p j hi hj => ?_⟩
    rw [List.length_replicate] at hj
    have hil : i < r.length := by rw [hr, ← hl]; exact (List.getElem?_eq_some_iff.1 hi).1
    have hri : r[i]? = some r[i] := List.getElem?_eq_getElem hil
    have hxl : j < (r[i]).length := by rw [hx _ (List.getElem_mem _)]; exact hj
    refine ⟨r[i], hri, ?_⟩
    rw [List.getElem?_eq_getElem hxl]
    congr 1
    exact hu0.2 i p _ hi hri j _ (List.getElem?_eq_getElem hxl))
  rw [hg'] at hg2
  obtain ⟨rfl, rfl⟩ := Prod.mk.inj (Except.ok.inj hg2)
  rw [hus, hra.scan_unique hra2]

omit [LinearOrder α] [IsStrictOrderedRing α] [FloorRing α] in
theorem CSR.RollingAverage.sum {w : CSR α} {pos : List Nat} {wts : List α} {scan : List Nat} (h : w.RollingAverage pos wts scan) (f : Nat → α) {i p : Nat} (hi : pos[i]? = some p) :
    ∑ c ∈ Finset.range w.ncols, w.dense i c * ((scan.map f).getD c 0) = ∑ j ∈ Finset.range wts.length, wts.getD j 0 * f (p + j) := by
  have hnd : scan.Nodup := h.increasing.imp (fun h => Nat.ne_of_lt h)
  set g : Nat → α := fun q => weightAt wts p q * f q with hg
  have e1 : ∑ c ∈ Finset.range w.ncols, w.dense i c * ((scan.map f).getD c 0) = ∑ q ∈ scan.toFinset, g q := by
    rw [List.sum_toFinset g hnd, ← h.cols, ← list_sum_range]
    congr 1
    apply List.ext_getElem
    · simp
    · intro c h1 h2
      have hc : c < scan.length := by simpa using h2
      have hq : scan[c]? = some scan[c] := List.getElem?_eq_getElem hc
      simp only [List.getElem_map, List.getElem_range, hg]
      rw [h.weight i p c _ hi hq, List.getD_eq_getElem?_getD, List.getElem?_map, hq]
      rfl
  have e2 : ∑ j ∈ Finset.range wts.length, wts.getD j 0 * f (p + j) = ∑ q ∈ Finset.Ico p (p + wts.length), g q := by
    rw [Finset.sum_Ico_eq_sum_range]
    simp only [Nat.add_sub_cancel_left, hg]
    apply Finset.sum_congr rfl
    intro j _
    congr 1
    simp [weightAt]
  have hz : ∀ q, weightAt wts p q = 0 → g q = 0 := by intro q hq; simp [hg, hq]
  rw [e1, e2, Finset.sum_subset (s₁ := scan.toFinset) (s₂ := scan.toFinset ∪ Finset.Ico p (p + wts.length)) Finset.subset_union_left,
    Finset.sum_subset (s₁ := Finset.Ico p (p + wts.length)) (s₂ := scan.toFinset ∪ Finset.Ico p (p + wts.length)) Finset.subset_union_right]
  · intro q _ hq
    apply hz
    by_contra hx
    exact hq (Finset.mem_Ico.2 (weightAt_out hx))
  · intro q _ hq
    apply hz
    by_contra hx
    exact hq (List.mem_toFinset.2 (h.complete p q (List.mem_of_getElem? hi) hx))

omit [IsStrictOrderedRing α] [FloorRing α] in
/-- The product of the matrix and the uncertainties of the scan lines: the mean of the uncertainties of the match-up. -/
theorem rolling_dot {w : CSR α} {pos scan : List Nat} {k : Nat} (hsh : w.Shape) (hra : w.RollingAverage pos (List.replicate k (1 / (k : α))) scan) {u0 : Nat → α}
    {rows : List (List α)} (hrow : ∀ x ∈ rows, x.length = k) (hu : ScanLineUnc rows pos u0) :
    ∃ x, csrDot w (scan.map u0) = .ok x ∧ x.length = pos.length ∧ ∀ (i : Nat) (row : List α), rows[i]? = some row → i < pos.length → x.getD i 0 = row.sum / k := by
  refine ⟨_, csrDot_vector hsh (by rw [List.length_map]; exact hra.cols), by rw [vector_length]; exact hra.rows, fun i row hr hi => ?_⟩
  have hp : pos[i]? = some pos[i] := List.getElem?_eq_getElem hi
  have e := hra.sum u0 hp
  have hl := hrow row (List.mem_of_getElem? hr)
  rw [List.getD_eq_getElem?_getD, vector, List.getElem?_map, List.getElem?_range (by rw [hra.rows]; exact hi)]
  show ∑ c ∈ Finset.range w.ncols, w.dense i c * (scan.map u0).getD c 0 = _
  have hs : row.sum = ∑ j ∈ Finset.range k, row.getD j 0 := by
    have := list_sum_eq_range row 0 id
    rw [List.map_id, hl] at this
    exact this
  rw [e, List.length_replicate, hs, Finset.sum_div]
  apply Finset.sum_congr rfl
  intro j hj
  have hj : j < k := by simpa using hj
  have hjr : row[j]? = some row[j] := List.getElem?_eq_getElem (by omega)
  rw [← hu.2 i _ row hp hr j _ hjr]
  simp [List.getD, hj, hl]
  rw [div_eq_inv_mul]

end

end Verif
