import Verif.Props.ReaderTotal
import Verif.Props.Transform
/-
Sound files open, and the opened match-up can be transformed to independent variables and back.
-/
set_option autoImplicit false
namespace Verif
variable {α δ : Type}

theorem slice_mem {β : Type} {l : List β} {a b : Nat} {x : β} (h : x ∈ slice l a b) : ∃ p, a ≤ p ∧ p < b ∧ l[p]? = some x := by
  unfold slice at h
  obtain ⟨i, hi⟩ := List.mem_iff_getElem?.1 h
  rw [List.getElem?_take] at hi
  split at hi
  · rename_i hlt
    rw [List.getElem?_drop] at hi
    exact ⟨a + i, by omega, by omega, hi⟩
  · cases hi

theorem mem_slice {β : Type} {l : List β} {a b p : Nat} {x : β} (h1 : a ≤ p) (h2 : p < b) (h : l[p]? = some x) : x ∈ slice l a b := by
  unfold slice
  refine List.mem_iff_getElem?.2 ⟨p - a, ?_⟩
  rw [List.getElem?_take, if_pos (by omega), List.getElem?_drop]
  rw [← h]; congr 1; omega

theorem pyMax_of {l : List Nat} {m : Nat} (h1 : ∀ x ∈ l, x ≤ m) (h2 : m ∈ l) : pyMax l = .ok m := by
  cases l with
  | nil => cases h2
  | cons x xs =>
    show Except.ok (xs.foldl max x) = Except.ok m
    congr 1
    have key : ∀ (xs : List Nat) (a : Nat), a ≤ xs.foldl max a ∧ (∀ y ∈ xs, y ≤ xs.foldl max a) ∧ (xs.foldl max a = a ∨ xs.foldl max a ∈ xs) := by
      intro xs
      induction xs with
      | nil => intro a; simp
      | cons b xs ih =>
        intro a
        obtain ⟨i1, i2, i3⟩ := ih (max a b)
        simp only [List.foldl_cons]
        refine ⟨by omega, ?_, ?_⟩
        · intro y hy
          rcases List.mem_cons.1 hy with rfl | hy
          · omega
          · exact i2 y hy
        · rcases i3 with h | h
          · rcases Nat.le_total a b with hab | hab
            · right; rw [h, Nat.max_eq_right hab]; simp
            · left; rw [h, Nat.max_eq_left hab]
          · right; simp [h]
    obtain ⟨k1, k2, k3⟩ := key xs x
    apply Nat.le_antisymm
    · rcases k3 with h | h
      · rw [h]; exact h1 x (by simp)
      · exact h1 _ (by simp [h])
    · rcases List.mem_cons.1 h2 with rfl | h
      · exact k1
      · exact k2 m h

/-- Sound matrices with valid row pointers open, and fit. -/
theorem Dataset.SoundMatrices.opens [Zero α] [LT α] {d : Dataset α} {w u : Nat} (h : d.SoundMatrices w u) {row : List Nat} {last : Nat}
    (hrow : d.wRow[w - 1]? = some row) (h0 : row[0]? = some 0) (hlast : row.getLast? = some last) (hle : last ≤ d.wNnz.getD (w - 1) 0) :
    ∃ W U, openW d w = .ok W ∧ openU d u = .ok U ∧ W.Shape ∧ W.nrows = d.M ∧ U.length = W.ncols ∧ ∀ x ∈ U, 0 < x := by
  obtain ⟨U, hU, hpos, hlt, p, c, hp1, hp2, hp3, hp4⟩ := h.vector
  obtain ⟨row', hrow', hlen⟩ := h.rows
  rw [hrow] at hrow'; cases hrow'
  obtain ⟨hw1, hw2⟩ := h.w_range
  obtain ⟨_, hs2, hs3⟩ := h.stored
  have e1 : pyGet (prefixSums d.wNnz) (w - 1) = .ok (d.wNnz.take (w - 1)).sum := by
    rw [pyGet, prefixSums_getElem?_of_le _ (by omega)]
  have e2 : pyGet (prefixSums d.wNnz) w = .ok (d.wNnz.take w).sum := by
    rw [pyGet, prefixSums_getElem?_of_le _ (by omega)]
  have hsum : (d.wNnz.take w).sum = (d.wNnz.take (w - 1)).sum + d.wNnz.getD (w - 1) 0 := by
    obtain ⟨k, rfl⟩ : ∃ k, w = k + 1 := ⟨w - 1, by omega⟩
    have hk : k < d.wNnz.length := by omega
    rw [Nat.add_sub_cancel, List.take_add_one, List.sum_append, List.getD, List.getElem?_eq_getElem hk]
    simp only [Option.toList_some, List.sum_cons, List.sum_nil, Nat.add_zero, Option.getD_some]
  have hmax : pyMax (slice d.wCol (d.wNnz.take (w - 1)).sum (d.wNnz.take w).sum) = .ok c := by
    apply pyMax_of
    · intro y hy
      obtain ⟨q, q1, q2, q3⟩ := slice_mem hy
      have := hlt q y q1 q2 q3
      omega
    · exact mem_slice hp1 hp2 hp3
  have hl1 : (slice d.wCol (d.wNnz.take (w - 1)).sum (d.wNnz.take w).sum).length = d.wNnz.getD (w - 1) 0 := by
    simp only [slice, List.length_take, List.length_drop]; omega
  have hl2 : (slice d.wVal (d.wNnz.take (w - 1)).sum (d.wNnz.take w).sum).length = d.wNnz.getD (w - 1) 0 := by
    simp only [slice, List.length_take, List.length_drop]; omega
  have hall : (slice d.wCol (d.wNnz.take (w - 1)).sum (d.wNnz.take w).sum).all (· < c + 1) = true := by
    rw [List.all_eq_true]
    intro y hy
    obtain ⟨q, q1, q2, q3⟩ := slice_mem hy
    have := hlt q y q1 q2 q3
    simp only [decide_eq_true_eq]; omega
  have hmk : ∀ (data : List α) (idx : List Nat), idx.length = d.wNnz.getD (w - 1) 0 → data.length = d.wNnz.getD (w - 1) 0 → idx.all (· < c + 1) = true →
      mkCSR data idx row (row.length - 1) (c + 1) = .ok { data := data.take last, indices := idx.take last, indptr := row, nrows := row.length - 1, ncols := c + 1 } := by
    intro data idx g1 g2 g3
    unfold mkCSR
    rw [h0, hlast]
    simp only
    rw [if_pos ⟨trivial, by omega, by omega, by omega, g3⟩]
  refine ⟨_, U, bind_ok.2 ⟨_, e1, bind_ok.2 ⟨_, e2, bind_ok.2 ⟨row, by rw [pyGet, hrow], bind_ok.2 ⟨c, hmax, hmk _ _ hl1 hl2 hall⟩⟩⟩⟩, hU, ⟨?_, ?_, ?_⟩, ?_, ?_, hpos⟩
  · simp only; omega
  · simp only [List.length_take, hl1, hl2]
  · intro y hy
    have := List.all_eq_true.1 hall y (List.mem_of_mem_take hy)
    simpa using this
  · simp only; omega
  · simp only; omega

/-- The uncertainty of a block of an opened match-up is that declared in the file for the block's column. -/
theorem opened_block [Zero α] [DecidableEq α] (env : ReadEnv α δ) (he : EnumOk env.enumNat) {ds : List (Dataset α)} (hc : ConsistentFiles ds) {mu : MatchUp α δ}
    (hmu : openMatchUp env ds = .ok mu) {b n : Nat} {u : UncBlock α} (hu : mu.unc[b]? = some u) (hN : mu.idx.N_var[b]? = some n) :
    ∃ (i : Nat) (d : Dataset α) (s : Side α) (c : Nat), ds[i]? = some d ∧ d.HasSide s ∧ c < s.m ∧ n = d.M ∧
      ((s.utype c = 1 ∧ u.unc = .independent (column d.M s.Ur c)) ∨
       (s.utype c = 2 ∧ u.unc = .systematic (column d.M s.Ur c) (column d.M s.Us c)) ∨
       ∃ (wi ui : Nat) (W : CSR α) (U : List α), d.hasUse = true ∧ mu.w_matrices[wi]? = some (some W) ∧ openW d (s.wUse c) = .ok W ∧
         mu.u_matrices[ui]? = some (some U) ∧ openU d (s.uUse c) = .ok U ∧
         ((s.utype c = 3 ∧ u.unc = .structured wi ui) ∨
          (s.utype c = 4 ∧ 1 < d.M ∧ u.unc = .structuredSystematic wi ui (s.Us 1 c)))) := by
  obtain ⟨x, mx, hx, hi⟩ := getIdx_facts (openMatchUp_nonempty hmu)
  obtain ⟨x', hx', _, _, _, _, _, _, _, _, _, _, _, hidx, _⟩ := openMatchUp_inv hmu
  rw [hx] at hx'; cases hx'
  have b5 : mu.idx.N_var = x.N_var := by rw [hidx]
  rw [b5] at hN
  have hbl : b < x.blocks.length := by rw [← hi.N_var_length]; exact (List.getElem?_eq_some_iff.1 hN).1
  obtain ⟨⟨s0, k, c⟩, hb⟩ : ∃ k, x.blocks[b]? = some k := ⟨_, List.getElem?_eq_getElem hbl⟩
  obtain ⟨hn1', hc1, d, sd', hd, hsd, hs, hcm⟩ := (hi.mem_blocks hc).1 (List.mem_of_getElem? hb)
  have hdM := hi.N_var_get hb hd
  rw [hN] at hdM
  obtain ⟨keys, b', ub, hk, hkb, hub, hcase⟩ := C10_declared_uncertainty env he ds hc mu hmu (k - 1) d hd sd' hsd (c - 1) (by omega)
  have hnames : mu.idx.nameBlocks = .ok (x.blocks.map fun b => (x.sensors.getD b.1 "", b.2.1, b.2.2)) := by
    rw [hidx]; exact hi.names hc
  rw [hnames] at hk; cases hk
  have hbb : b' = b := by
    have hnd := hi.name_inj hc
    have e2 : (x.blocks.map fun b => (x.sensors.getD b.1 "", b.2.1, b.2.2))[b]? = some (sd'.name, k - 1 + 1, c - 1 + 1) := by
      rw [List.getElem?_map, hb]
      have e1 := hi.sens_lookup (mem_sides.2 ⟨d, List.mem_of_getElem? hd, hsd⟩)
      simp only [Option.map_some, List.getD, hs, e1, Option.getD_some, Option.some.injEq, Prod.mk.injEq, true_and]
      omega
    exact (List.getElem?_inj (List.getElem?_eq_some_iff.1 hkb).1 hnd).1 (by rw [hkb, e2])
  subst hbb
  rw [hu] at hub; cases hub
  exact ⟨k - 1, d, sd', c - 1, hd, hsd, by omega, by simpa using hdM, hcase⟩

variable [Field α] [LinearOrder α]

/-- A sound column whose unchecked parts are right is readable. -/
theorem Dataset.SoundColumn.readable {d : Dataset α} {s : Side α} {c : Nat} (h : d.SoundColumn s c) (hu : d.Unchecked) (hs : d.HasSide s) (hc : c < s.m) :
    d.ReadableColumn s c := by
  have key : s.utype c = 3 ∨ s.utype c = 4 → d.SoundMatrices (s.wUse c) (s.uUse c) →
      s.wUse c ≠ 0 ∧ s.uUse c ≠ 0 ∧ (∃ W, openW d (s.wUse c) = .ok W) ∧ ∃ U, openU d (s.uUse c) = .ok U := by
    intro ht hm
    obtain ⟨row, g1, g2, last, g3, g4⟩ := hu.pointers s hs c hc ht
    obtain ⟨W, U, k1, k2, _⟩ := hm.opens g1 g2 g3 g4
    have := hm.w_range
    have := hm.u_range
    exact ⟨by omega, by omega, ⟨W, k1⟩, U, k2⟩
  rcases h.2 with ⟨h, _⟩ | ⟨h, _⟩ | ⟨h, huse, _, hm⟩ | ⟨h, huse, _, hm⟩
  · exact .inl h
  · exact .inr (.inl h)
  · exact .inr (.inr ⟨.inl h, huse, key (.inl h) hm⟩)
  · exact .inr (.inr ⟨.inr ⟨h, hu.two s hs c hc h⟩, huse, key (.inr h) hm⟩)

/-- The W matrices in use can be solved row after row (see `CSR.Sequential`). -/
def Dataset.SequentialW (d : Dataset α) : Prop :=
  ∀ s, d.HasSide s → ∀ c, c < s.m → s.utype c = 3 ∨ s.utype c = 4 → ∀ W, openW d (s.wUse c) = .ok W → W.Sequential

/-- Sound files open, and the opened match-up satisfies the conditions under which the transformation to independent variables is reversible (C23-C27):
all the uncertainties it divides by are non-zero. -/
theorem sound_opens (env : ReadEnv α δ) (he : EnumOk env.enumNat) (he' : EnumOk env.enumStr) (hrss : ∀ a b : α, 0 < b ^ 2 + a ^ 2 → env.rss a b ≠ 0)
    {ds : List (Dataset α)} (hne : ds ≠ []) (hcov : ∀ d ∈ ds, ∀ e ∈ ds, ∀ s ∈ [d.s1, d.s2], ∀ t ∈ [e.s1, e.s2], s.name = t.name → s.m = t.m)
    (hsound : ∀ d ∈ ds, d.Sound) (hun : ∀ d ∈ ds, d.Unchecked) (ho : OptionalSized ds) :
    ∃ mu, openMatchUp env ds = .ok mu ∧ (∀ u ∈ mu.unck, ∀ a ∈ u, a ≠ 0) ∧
      ((∀ d ∈ ds, 1 ≤ d.s1.m ∨ 1 ≤ d.s2.m) → (∀ d ∈ ds, d.SequentialW) → mu.Normalisable) := by
  have hc : ConsistentFiles ds := ⟨fun d hd => (hsound d hd).sensors, hcov⟩
  obtain ⟨mu, hmu⟩ := C67_opens env he he' hne hc ho fun d hd s hs c hlt => ((hsound d hd).columns s hs c hlt).readable (hun d hd) hs hlt
  have hunck : ∀ u ∈ mu.unck, ∀ a ∈ u, a ≠ 0 := by
    obtain ⟨x, hx, _, _, _, _, _, _, _, _, _, hk, _⟩ := openMatchUp_inv hmu
    rw [hk]
    intro u hu a ha
    obtain ⟨d, hd, rfl⟩ := List.mem_map.1 hu
    obtain ⟨r, hr, rfl⟩ := List.mem_map.1 ha
    exact hrss _ _ ((hsound d hd).K r (by simpa using hr)).2.2
  refine ⟨mu, hmu, hunck, fun h1 hseq => ?_⟩
  obtain ⟨hor, hn1, hn2, _, _⟩ := opened_numbered env ds hc mu hmu
  obtain ⟨x, mx, hx, hi⟩ := getIdx_facts (openMatchUp_nonempty hmu)
  obtain ⟨x', hx', _, _, _, _, _, _, _, _, _, _, _, hidx, _⟩ := openMatchUp_inv hmu
  rw [hx] at hx'; cases hx'
  refine ⟨opened_wellLaid env ds hc h1 mu hmu, ?_, hor, ?_, hunck⟩
  · rw [hidx]; simp only; rw [hi.Im, hi.Nm]; simp
  · intro b n u hu hN
    obtain ⟨i, d, s, c, hd, hs, hlt, rfl, hcase⟩ := opened_block env he hc hmu hu hN
    have hdm := List.mem_of_getElem? hd
    have hsc := (hsound d hdm).columns s hs c hlt
    have hnum : u.unc.typeID = 2 ∨ u.unc.typeID = 4 → ∃ k, u.uS_i = some k ∧ 1 ≤ k := by
      intro ht
      obtain ⟨k, hk⟩ := Option.ne_none_iff_exists'.1 ((hn1 u (List.mem_of_getElem? hu)).2 ht)
      exact ⟨k, hk, (hn2 u (List.mem_of_getElem? hu) k hk).1⟩
    have hpos : s.utype c = 1 ∨ s.utype c = 2 → ∀ a ∈ column d.M s.Ur c, a ≠ 0 := by
      intro ht a ha
      obtain ⟨r, hr, rfl⟩ := List.mem_map.1 ha
      have hr : r < d.M := by simpa using hr
      rcases hsc.2 with ⟨_, h⟩ | ⟨_, h⟩ | ⟨h, _⟩ | ⟨h, _⟩
      · exact (h r hr).1.ne'
      · exact (h r hr).1.ne'
      · omega
      · omega
    rcases hcase with ⟨ht, hun'⟩ | ⟨ht, hun'⟩ | ⟨wi, ui, W, U, huse, hW, hoW, hU, hoU, hcase⟩
    · exact .inl ⟨_, by simp [column], hpos (.inl ht), .inl hun'⟩
    · obtain ⟨k, hk, hk1⟩ := hnum (by simp [hun', Unc.typeID])
      exact .inl ⟨_, by simp [column], hpos (.inr ht), .inr ⟨_, k, hun', by simp [column], hk, hk1⟩⟩
    · have ht : s.utype c = 3 ∨ s.utype c = 4 := by rcases hcase with ⟨h, _⟩ | ⟨h, _⟩ <;> simp [h]
      have hsm : d.SoundMatrices (s.wUse c) (s.uUse c) := by
        rcases hsc.2 with ⟨h, _⟩ | ⟨h, _⟩ | ⟨_, _, _, h⟩ | ⟨_, _, _, h⟩
        · omega
        · omega
        · exact h
        · exact h
      obtain ⟨row, g1, g2, last, g3, g4⟩ := (hun d hdm).pointers s hs c hlt ht
      obtain ⟨W', U', k1, k2, k3, k4, k5, k6⟩ := hsm.opens g1 g2 g3 g4
      rw [hoW] at k1; cases k1
      rw [hoU] at k2; cases k2
      refine .inr ⟨wi, ui, W, U, hW, hU, k3, hseq d hdm s hs c hlt ht W hoW, k4, k5, fun a ha => (k6 a ha).ne', ?_⟩
      rcases hcase with ⟨_, h⟩ | ⟨_, _, h⟩
      · exact .inl h
      · obtain ⟨k, hk, hk1⟩ := hnum (by simp [h, Unc.typeID])
        exact .inr ⟨_, k, h, hk, hk1⟩

end Verif
