import Verif.Lemmas.Avhrr
/-
Lemmas for property C75: the files.
-/
set_option autoImplicit false
namespace Verif
variable {α : Type}

/-- All arrays of a side have `n` rows and `p` columns. -/
structure AvhrrSide.Shaped (s : AvhrrSide α) (nm : String) (n p : Nat) : Prop where
  name : s.name = some nm
  X : s.X.nrows = n ∧ s.X.ncols = p
  Ur : s.Ur.nrows = n ∧ s.Ur.ncols = p
  Us : s.Us.nrows = n ∧ s.Us.ncols = p
  lists : s.utype.length = p ∧ s.wUse.length = p ∧ s.uUse.length = p

def AvhrrSide.cutTo (s : AvhrrSide α) (nm : String) (m : Nat) : SideArrays α :=
  { name := nm, X := s.X.cols m, Ur := s.Ur.cols m, Us := s.Us.cols m, utype := s.utype.take m, wUse := s.wUse.take m, uUse := s.uUse.take m }

theorem AvhrrSide.Shaped.cut {s : AvhrrSide α} {nm : String} {n p : Nat} (h : s.Shaped nm n p) (m : Nat) : s.cut m = .ok (s.cutTo nm m) := by
  unfold AvhrrSide.cut; rw [h.name]; rfl

theorem AvhrrSide.Shaped.fits {s : AvhrrSide α} {nm : String} {n p : Nat} (h : s.Shaped nm n p) {m : Nat} (hm : m ≤ p) :
    (s.cutTo nm m).Fits n ∧ (s.cutTo nm m).X.ncols = m ∧ (s.cutTo nm m).wUse.length = m ∧ (s.cutTo nm m).uUse.length = m := by
  have e : ∀ q, q = p → min m q = m := by rintro q rfl; omega
  have x1 := h.X; have x2 := h.Ur; have x3 := h.Us; have x4 := h.lists
  refine ⟨⟨h.X.1, ⟨h.Ur.1, ?_⟩, ⟨h.Us.1, ?_⟩, ?_⟩, ?_, ?_, ?_⟩
  · show min m s.Ur.ncols = min m s.X.ncols; rw [x1.2, x2.2]
  · show min m s.Us.ncols = min m s.X.ncols; rw [x1.2, x3.2]
  · show (s.utype.take m).length = min m s.X.ncols; rw [List.length_take, x4.1, x1.2]
  · exact e _ x1.2
  · show (s.wUse.take m).length = m; rw [List.length_take, x4.2.1]; omega
  · show (s.uUse.take m).length = m; rw [List.length_take, x4.2.2]; omega

/-- The additional variables taken over. -/
structure AddOk (l : List (String × NcVar α)) (n : Nat) : Prop where
  each : ∀ v ∈ l, v.2.dims = ["M"] ∧ v.2.data.length = n ∧ v.1 ∈ avhrrRenamed.map (·.2)
  names : (l.map (·.1)).Nodup

structure AvhrrState.Shaped (st : AvhrrState α) (n1 n2 : String) (n p : Nat) : Prop where
  s1 : st.s1.Shaped n1 n p
  s2 : st.s2.Shaped n2 n 5
  K : st.K.length = n ∧ st.Kr.length = n ∧ st.Ks.length = n
  time : st.time1.length = n ∧ st.time2.length = n
  additional : AddOk st.additional n

def AvhrrState.toFile (st : AvhrrState α) (n1 n2 : String) (m1 m2 : Nat) : FileArrays α :=
  { s1 := st.s1.cutTo n1 m1, s2 := st.s2.cutTo n2 m2, K := st.K, Kr := st.Kr, Ks := st.Ks, time1 := st.time1, time2 := st.time2
    additional := st.additional ++ (toVars st.s1 "To1" m1 ++ toVars st.s2 "To2" m2) }

theorem AvhrrState.Shaped.arrays {st : AvhrrState α} {n1 n2 : String} {n p : Nat} (h : st.Shaped n1 n2 n p) (m1 m2 : Nat) : st.arrays m1 m2 = .ok (st.toFile n1 n2 m1 m2) :=
  bind_ok.2 ⟨_, h.s1.cut m1, bind_ok.2 ⟨_, h.s2.cut m2, rfl⟩⟩

theorem mem_toVars {s : AvhrrSide α} {nm : String} {n p : Nat} (h : s.Shaped nm n p) {name : String} {m : Nat} {v : String × NcVar α} :
    v ∈ toVars s name m ↔ m = 4 ∧ v = (name, ⟨["M"], (List.range n).map fun r => s.X.val r (p - 1)⟩) := by
  unfold toVars
  rw [h.X.1, h.X.2]
  split
  · rename_i hm; simp [hm]
  · rename_i hm; simp [hm]

theorem AvhrrState.Shaped.fits {st : AvhrrState α} {n1 n2 : String} {n p : Nat} (h : st.Shaped n1 n2 n p) {m1 m2 : Nat} (h1 : m1 ≤ p) (h2 : m2 ≤ 5) :
    (st.toFile n1 n2 m1 m2).Fits ∧ (st.toFile n1 n2 m1 m2).s1.X.nrows = n := by
  have hn : (st.toFile n1 n2 m1 m2).s1.X.nrows = n := h.s1.X.1
  have hren : ∀ m ∈ avhrrRenamed.map (·.2), m ∉ writtenNames ∧ m ≠ "To1" ∧ m ≠ "To2" := by decide +kernel
  have hTo : "To1" ∉ writtenNames ∧ "To2" ∉ writtenNames ∧ ("To1" : String) ≠ "To2" := by decide +kernel
  refine ⟨⟨?_, ?_, ?_, ?_, ?_, ?_⟩, hn⟩
  · rw [hn]; exact (h.s1.fits h1).1
  · rw [hn]; exact (h.s2.fits h2).1
  · rw [hn]; exact h.K
  · rw [hn]; exact h.time
  · intro v hv
    rw [hn]
    rcases List.mem_append.1 hv with hv | hv
    · obtain ⟨a, b, c⟩ := h.additional.each v hv
      exact ⟨a, b, (hren _ c).1⟩
    rcases List.mem_append.1 hv with hv | hv
    · obtain ⟨_, rfl⟩ := (mem_toVars h.s1).1 hv
      exact ⟨rfl, by simp, hTo.1⟩
    · obtain ⟨_, rfl⟩ := (mem_toVars h.s2).1 hv
      exact ⟨rfl, by simp, hTo.2.1⟩
  · show ((st.additional ++ (toVars st.s1 "To1" m1 ++ toVars st.s2 "To2" m2)).map (·.1)).Nodup
    rw [List.map_append, List.nodup_append]
    have e : ∀ (s : AvhrrSide α) (nm : String) (m : Nat), (toVars s nm m).map (·.1) = if m = 4 then [nm] else [] := by
      intro s nm m; unfold toVars; split <;> rfl
    refine ⟨h.additional.names, ?_, ?_⟩
    · rw [List.map_append, e, e]
      split <;> split <;> simp [hTo.2.2]
    · intro a ha b hb hab
      subst hab
      obtain ⟨v, hv, rfl⟩ := List.mem_map.1 ha
      have := hren _ (h.additional.each v hv).2.2
      rw [List.map_append, e, e] at hb
      rcases List.mem_append.1 hb with hb | hb
      · split at hb
        · exact this.2.1 (by simpa using hb)
        · simp at hb
      · split at hb
        · exact this.2.2 (by simpa using hb)
        · simp at hb

/-- The numbers of matrices of a side exist where the type calls for them. -/
def AvhrrSide.UsesOk (s : AvhrrSide α) (nw nu : Nat) : Prop :=
  ∀ (c t w u : Nat), s.utype[c]? = some t → s.wUse[c]? = some w → s.uUse[c]? = some u → t = 1 ∨ t = 2 ∨ (t = 3 ∧ 1 ≤ w ∧ w ≤ nw ∧ 1 ≤ u ∧ u ≤ nu)

theorem AvhrrState.Shaped.fitsMatrices {st : AvhrrState α} {n1 n2 : String} {n p : Nat} (h : st.Shaped n1 n2 n p) {m1 m2 : Nat} (h1 : m1 ≤ p) (h2 : m2 ≤ 5) {ws : List (CSR α)}
    {us : List (List α)} (hw : ws ≠ []) (hwf : ∀ w ∈ ws, w.WellFormed ∧ w.nrows = n ∧ w.data ≠ []) (hu1 : st.s1.UsesOk ws.length us.length) (hu2 : st.s2.UsesOk ws.length us.length) :
    (st.toFile n1 n2 m1 m2).FitsMatrices ws us := by
  obtain ⟨hf, hn⟩ := h.fits h1 h2 (m1 := m1) (m2 := m2)
  have tk : ∀ {β : Type} {l : List β} {m c : Nat} {x : β}, (l.take m)[c]? = some x → l[c]? = some x := by
    intro β l m c x hx
    rw [List.getElem?_take] at hx
    split at hx
    · exact hx
    · exact absurd hx (by simp)
  refine ⟨hf, hw, by rw [hn]; exact hwf, ?_, ?_⟩
  · intro s hs
    simp only [List.mem_cons, List.not_mem_nil, or_false] at hs
    rcases hs with rfl | rfl
    · obtain ⟨_, a, b, c⟩ := h.s1.fits h1
      exact ⟨b.trans a.symm, c.trans a.symm⟩
    · obtain ⟨_, a, b, c⟩ := h.s2.fits h2
      exact ⟨b.trans a.symm, c.trans a.symm⟩
  · intro s hs c t w u ht hw hu
    simp only [List.mem_cons, List.not_mem_nil, or_false] at hs
    rcases hs with rfl | rfl
    · rcases hu1 c t w u (tk ht) (tk hw) (tk hu) with h | h | ⟨h, h'⟩
      · exact .inl h
      · exact .inr (.inl h)
      · exact .inr (.inr ⟨.inl h, h'⟩)
    · rcases hu2 c t w u (tk ht) (tk hw) (tk hu) with h | h | ⟨h, h'⟩
      · exact .inl h
      · exact .inr (.inl h)
      · exact .inr (.inr ⟨.inl h, h'⟩)

/-! ### What the files have in common -/

section
variable [Field α]

omit [Field α] in
theorem filterMap_names {g : String × String → Option (String × NcVar α)} (hg : ∀ e y, g e = some y → y.1 = e.2) : ∀ (l : List (String × String)), (l.map (·.2)).Nodup →
    ((l.filterMap g).map (·.1)).Nodup ∧ ∀ n ∈ (l.filterMap g).map (·.1), n ∈ l.map (·.2)
  | [], _ => by simp
  | e :: l, hn => by
    rw [List.map_cons, List.nodup_cons] at hn
    obtain ⟨a, b⟩ := filterMap_names hg l hn.2
    rcases he : g e with _ | y
    · rw [List.filterMap_cons_none he]
      exact ⟨a, fun n hn => by rw [List.map_cons]; exact List.mem_cons_of_mem _ (b n hn)⟩
    · rw [List.filterMap_cons_some he, List.map_cons, hg e y he, List.map_cons]
      refine ⟨List.nodup_cons.2 ⟨fun hx => hn.1 (b _ hx), a⟩, fun n hx => ?_⟩
      rcases List.mem_cons.1 hx with rfl | hx
      · exact List.mem_cons_self
      · exact List.mem_cons_of_mem _ (b n hx)

theorem avhrrAdditional_ok (vars : List (String × List α)) (kept : List Nat) : AddOk (avhrrAdditional vars kept) kept.length := by
  refine ⟨fun v hv => ?_, ?_⟩
  · obtain ⟨e, he, hx⟩ := List.mem_filterMap.1 hv
    obtain ⟨x, _, rfl⟩ := Option.map_eq_some_iff.1 hx
    exact ⟨rfl, by simp, List.mem_map.2 ⟨e, he, rfl⟩⟩
  · refine (filterMap_names ?_ avhrrRenamed (by decide +kernel)).1
    intro e y hy
    obtain ⟨x, _, rfl⟩ := Option.map_eq_some_iff.1 hy
    rfl

theorem mem_avhrrAdditional {vars : List (String × List α)} {kept : List Nat} {n : String} {v : NcVar α} :
    (n, v) ∈ avhrrAdditional vars kept ↔ ∃ old x, (old, n) ∈ avhrrRenamed ∧ lookupVar vars old = some x ∧ v = ⟨["M"], kept.map fun i => x.getD i 0⟩ := by
  unfold avhrrAdditional lookupVar
  rw [List.mem_filterMap]
  constructor
  · rintro ⟨e, he, hx⟩
    obtain ⟨y, hy, hyv⟩ := Option.map_eq_some_iff.1 hx
    obtain ⟨rfl, rfl⟩ := Prod.mk.inj hyv
    exact ⟨e.1, y.2, he, by rw [hy]; rfl, rfl⟩
  · rintro ⟨old, x, he, hx, rfl⟩
    obtain ⟨y, hy, rfl⟩ := Option.map_eq_some_iff.1 hx
    exact ⟨(old, n), he, by rw [hy]; rfl⟩

theorem avhrrCopied_iff {old n : String} : AvhrrCopied old n ↔ (old, n) ∈ avhrrRenamed ∧ old ≠ "original_indices" := by
  have h1 : ∀ q ∈ [("latitude", "lat"), ("longitude", "lon"), ("satza", "vza"), ("solza", "sza"), ("BT", "nominal_measurand")],
      ((q.1, q.2 ++ "2") ∈ avhrrRenamed ∧ q.1 ≠ "original_indices") ∧ (("ref_" ++ q.1, q.2 ++ "1") ∈ avhrrRenamed ∧ "ref_" ++ q.1 ≠ "original_indices") := by decide +kernel
  have h2 : ∀ e ∈ avhrrRenamed, e.1 ≠ "original_indices" → ∃ q ∈ [("latitude", "lat"), ("longitude", "lon"), ("satza", "vza"), ("solza", "sza"), ("BT", "nominal_measurand")],
    (e.1 = q.1 ∧ e.2 = q.2 ++ "2") ∨ (e.1 = "ref_" ++ q.1 ∧ e.2 = q.2 ++ "1") := by decide +kernel
  constructor
  · rintro ⟨q, hq, ⟨rfl, rfl⟩ | ⟨rfl, rfl⟩⟩
    · exact (h1 q hq).1
    · exact (h1 q hq).2
  · exact fun h => h2 _ h.1 h.2

/-- The data of the state come from the file given. -/
structure AvhrrState.From (st : AvhrrState α) (raw : AvhrrRaw α) (kept : List Nat) (vars : List (String × List α)) (p : Nat) : Prop where
  X1 : st.s1.X = takeRows kept raw.H 0 p
  X2 : st.s2.X = takeRows kept raw.H 5 5
  K : st.K = takeVec kept raw.K
  Kr : st.Kr = takeVec kept raw.Kr
  Ks : st.Ks = takeVec kept raw.Ks
  time1 : st.time1 = takeVec kept raw.time1
  time2 : st.time2 = takeVec kept raw.time2
  additional : st.additional = avhrrAdditional vars kept

theorem takeVec_getD {kept : List Nat} {f : Nat → α} {i r : Nat} (h : kept[i]? = some r) : (takeVec kept f).getD i 0 = f r := by
  simp [takeVec, List.getD, h]

theorem range_map_getD {kept : List Nat} (f : Nat → α) : ((List.range kept.length).map fun r => f (kept.getD r 0)) = kept.map f := by
  apply List.ext_getElem
  · simp
  · intro i h1 h2
    have : i < kept.length := by simpa using h1
    simp [List.getD, this]

theorem AvhrrState.From.file {st : AvhrrState α} {raw : AvhrrRaw α} {kept : List Nat} {vars : List (String × List α)} {n1 n2 band : String} {p : Nat} {k1 k2 : Nat}
    (h : st.From raw kept vars p) (hs : st.Shaped n1 n2 kept.length p) (hu : raw.Usable n1 n2 band k1 k2) (hk : ∀ r ∈ kept, r < raw.M)
    (hv0 : lookupVar vars "original_indices" = some ((List.range raw.M).map fun (i : Nat) => (i : α)))
    (hv : ∀ e ∈ avhrrRenamed, e.1 ≠ "original_indices" → lookupVar vars e.1 = lookupVar raw.vars (rawName band e.1)) {m1 m2 : Nat} (h1 : m1 ≤ p) (h2 : m2 ≤ 5)
    (h4 : m1 = 4 → p = 5) : (st.toFile n1 n2 m1 m2).asDataset.AvhrrFile raw kept n1 n2 band m1 m2 := by
  refine ⟨hs.s1.X.1, ⟨rfl, rfl⟩, ⟨(hs.s1.fits h1).2.1, (hs.s2.fits h2).2.1⟩, ?_, ?_, ?_, ?_, ?_⟩
  · intro i r c hi _
    show st.s1.X.val i c = _
    rw [h.X1]
    show raw.H (kept.getD i 0) (0 + c) = _
    rw [getD_of hi, zero_add]
  · intro i r c hi _
    show st.s2.X.val i c = _
    rw [h.X2]
    show raw.H (kept.getD i 0) (5 + c) = _
    rw [getD_of hi]
  · intro i r hi
    refine ⟨?_, ?_, ?_⟩
    · show st.K.getD i 0 = _
      rw [h.K]; exact takeVec_getD hi
    · show st.Kr.getD i 0 = _
      rw [h.Kr]; exact takeVec_getD hi
    · show st.Ks.getD i 0 = _
      rw [h.Ks]; exact takeVec_getD hi
  · intro i r hi
    refine ⟨?_, ?_⟩
    · show st.time1.getD i 0 = _
      rw [h.time1]; exact takeVec_getD hi
    · show st.time2.getD i 0 = _
      rw [h.time2]; exact takeVec_getD hi
  · intro n v
    show (n, v) ∈ st.additional ++ (toVars st.s1 "To1" m1 ++ toVars st.s2 "To2" m2) ↔ _
    rw [List.mem_append, List.mem_append, mem_toVars hs.s1, mem_toVars hs.s2, h.additional, mem_avhrrAdditional, h.X1, h.X2]
    have horig : kept.map (fun i => ((List.range raw.M).map fun (i : Nat) => (i : α)).getD i 0) = kept.map fun (r : Nat) => (r : α) := by
      apply List.map_congr_left
      intro r hr
      have := hk r hr
      simp [List.getD, this]
    have hT1 : ∀ q, ((List.range kept.length).map fun r => (takeRows kept raw.H 0 q).val r (5 - 1)) = kept.map fun r => raw.H r 4 := by
      intro q
      exact range_map_getD (kept := kept) (fun r => raw.H r 4)
    have hT2 : ((List.range kept.length).map fun r => (takeRows kept raw.H 5 5).val r (5 - 1)) = kept.map fun r => raw.H r 9 := range_map_getD (kept := kept) (fun r => raw.H r 9)
    have hfun : ∀ n, ("original_indices", n) ∈ avhrrRenamed → n = "original_indices" := by
      have : ∀ e ∈ avhrrRenamed, e.1 = "original_indices" → e.2 = "original_indices" := by decide +kernel
      exact fun n hn => this _ hn rfl
    unfold AvhrrAdditional
    constructor
    · rintro (⟨old, x, he, hx, rfl⟩ | ⟨hm, hx⟩ | ⟨hm, hx⟩)
      · refine ⟨rfl, ?_⟩
        by_cases ho : old = "original_indices"
        · subst ho
          rw [hv0] at hx
          obtain rfl := Option.some.inj hx
          exact .inl ⟨hfun n he, horig⟩
        · refine .inr (.inl ⟨old, x, avhrrCopied_iff.2 ⟨he, ho⟩, ?_, rfl⟩)
          rw [lookupVar_mem hu.names, ← hv _ he ho]; exact hx
      · obtain ⟨rfl, rfl⟩ := Prod.mk.inj hx
        have hp := h4 hm
        subst hp
        exact ⟨rfl, .inr (.inr (.inl ⟨rfl, hm, hT1 5⟩))⟩
      · obtain ⟨rfl, rfl⟩ := Prod.mk.inj hx
        exact ⟨rfl, .inr (.inr (.inr ⟨rfl, hm, hT2⟩))⟩
    · rcases v with ⟨dims, data⟩
      rintro ⟨hd, ⟨rfl, hx⟩ | ⟨old, x, hc, hx, hx'⟩ | ⟨rfl, hm, hx⟩ | ⟨rfl, hm, hx⟩⟩
      · simp only at hd hx
        subst hd hx
        exact .inl ⟨"original_indices", _, by decide +kernel, hv0, by rw [horig]⟩
      · simp only at hd hx'
        subst hd hx'
        obtain ⟨he, ho⟩ := avhrrCopied_iff.1 hc
        refine .inl ⟨old, x, he, ?_, rfl⟩
        rw [hv _ he ho]
        exact (lookupVar_mem hu.names).1 hx
      · simp only at hd hx
        subst hd hx
        have hp := h4 hm
        subst hp
        exact .inr (.inl ⟨hm, by rw [hT1]⟩)
      · simp only at hd hx
        subst hd hx
        exact .inr (.inr ⟨hm, by rw [hT2]⟩)

end
end Verif
