import Verif.Props.GNRunCase
/-
Property C57: a run on match-ups of the right sizes always returns. Property C58: the residuals returned.
-/
set_option autoImplicit false
namespace Verif
variable {α δ : Type} [Field α]
open Finset (range sum_congr)

section
variable {g : GN α δ} {ms : Evaluable α δ} {labels clabels : List String} {m n : Nat} {N : List Nat}

theorem colsAt_length (g : GN α δ) (T n k q : Nat) (blk : Nat → Nat) (x : List α) : (g.colsAt T n k q blk x).length = q := by
  simp [GN.colsAt]

/-- The models of a side of the right sizes can be evaluated at any point. -/
theorem sideVal_total (h : g.Setup ms labels clabels m N n) {x : List α} (hx : x.length = N.sum + n + labels.length) {i k s : Nat}
    (hs : ms.SideReady labels clabels m (i + 1) s) : ∃ y a, g.SideVal ms labels clabels (N.sum + n) n i k s x y a := by
  obtain ⟨name, q, f, B, h1, h2, h3, h4, h5, h6, h7, h8⟩ := hs
  have hcl : ∀ col ∈ g.colsAt (N.sum + n) n k q (blkOf ms.mu.idx s (i + 1)) x, col.length = k := by
    intro col hcol
    obtain ⟨c, _, rfl⟩ := List.mem_map.1 hcol
    simp
  obtain ⟨y, J, hy, hyl⟩ : ∃ y J, f (g.colsAt (N.sum + n) n k q (blkOf ms.mu.idx s (i + 1)) x) (labelled labels (x.drop (N.sum + n)) name)
      (labelled clabels ms.constant name) none none none = .ok (y, J) ∧ y.length = k := by
    rcases h8 with ⟨hc, _, _⟩ | ⟨hr, _⟩
    · obtain ⟨R, J, e1, e2, _⟩ := hc _ (labelled labels (x.drop (N.sum + n)) name) none none none k (colsAt_length ..) hcl
        (labelled_length (by rw [List.length_drop]; omega) name)
      exact ⟨R, some J, e1, e2⟩
    · refine ⟨_, none, hr _ _ none none none (colsAt_length ..), ?_⟩
      have hl := colsAt_length g (N.sum + n) n k q (blkOf ms.mu.idx s (i + 1)) x
      rcases hX : g.colsAt (N.sum + n) n k q (blkOf ms.mu.idx s (i + 1)) x with _ | ⟨c0, cs⟩
      · rw [hX] at hl; simp at hl; omega
      · exact hcl c0 (by rw [hX]; simp)
  obtain ⟨a, d, e1, e2, _⟩ := h5 y
  exact ⟨y, a, name, q, f, B, J, d, h1, h3, h4, h6, h7, hy, e1, hyl, by rw [e2, hyl]⟩

/-- The residuals can be computed at any point. -/
theorem calcF_total (h : g.Setup ms labels clabels m N n) {x : List α} (hx : x.length = N.sum + n + labels.length) :
    ∃ f, g.calcF x = .ok f ∧ f.length = N.sum + n + ms.mu.idx.Nm.sum := by
  have hN : ms.mu.idx.Im.length = ms.mu.idx.Nm.length := h.ready.pairs
  have key : ∀ i, ∃ (y1 a1 y2 a2 : List α), ∀ (k : Nat) pair, ms.mu.idx.Im[i]? = some pair → ms.mu.idx.Nm[i]? = some k →
      g.SideVal ms labels clabels (N.sum + n) n i k pair.1 x y1 a1 ∧ g.SideVal ms labels clabels (N.sum + n) n i k pair.2 x y2 a2 := by
    intro i
    by_cases hi : i < ms.mu.idx.Nm.length
    · have hp := List.getElem?_eq_getElem (l := ms.mu.idx.Im) (i := i) (by omega)
      have hk := List.getElem?_eq_getElem (l := ms.mu.idx.Nm) (i := i) hi
      obtain ⟨s1, s2⟩ := h.ready.sides i _ hp
      obtain ⟨y1, a1, v1⟩ := sideVal_total h hx (k := ms.mu.idx.Nm[i]) s1
      obtain ⟨y2, a2, v2⟩ := sideVal_total h hx (k := ms.mu.idx.Nm[i]) s2
      refine ⟨y1, a1, y2, a2, ?_⟩
      intro k pair hp' hk'
      rw [hp] at hp'; cases hp'
      rw [hk] at hk'; cases hk'
      exact ⟨v1, v2⟩
    · exact ⟨[], [], [], [], fun k pair _ hk' => absurd (List.getElem?_eq_some_iff.1 hk').1 hi⟩
  choose y1 a1 y2 a2 hall using key
  exact ⟨_, calcF_eq h hx (y1 := y1) (a1 := a1) (y2 := y2) (a2 := a2) hall, by simp⟩

theorem GN.Setup.at (h : g.Setup ms labels clabels m N n) {x : List α} (hx : x.length = N.sum + n + labels.length) :
    GN.Setup { g with xyza := x } ms labels clabels m N n := ⟨h.ready, h.facts, h.hd, hx, h.S_len, h.S_row⟩

theorem calcPx_total (h : g.Setup ms labels clabels m N n) (t : Bool) {x : List α} (hx : x.length = N.sum + n + labels.length) :
    ∃ y, g.calcPx t x = .ok y ∧ y.length = x.length := by
  obtain ⟨js, hj⟩ := h.shaped
  cases t
  · exact ⟨_, calcPx_fwd hj hx, by rw [vector_length, hx]⟩
  · exact ⟨_, calcPx_bwd hj hx, by rw [vector_length, hx]⟩

theorem getJPTx_total (h : g.Setup ms labels clabels m N n) {y : List α} (hy : y.length = N.sum + n + ms.mu.idx.Nm.sum) :
    ∃ v, g.getJPTx y = .ok v ∧ v.length = N.sum + n + labels.length := by
  obtain ⟨js, hj⟩ := h.shaped
  exact ⟨_, prod_bwd_mat hj hy, by simp⟩

/-- A linear solver returns a vector of `cols` values for any right-hand side of `rows` values, whatever the estimate. -/
def GN.SolverSized (g : GN α δ) (solver : GN α δ → List α → Py (List α)) (rows cols : Nat) : Prop :=
  ∀ x b, x.length = g.xyza.length → b.length = rows → ∃ z, solver { g with xyza := x } b = .ok z ∧ z.length = cols

/-- The LSMR object holds a vector of `cols` values after any call on a right-hand side of `rows` values, whatever the estimate and what it held before. -/
def GN.LsmrSized (g : GN α δ) (solver : LsmrObject α δ) (rows cols : Nat) : Prop :=
  ∀ x b s, x.length = g.xyza.length → b.length = rows → ∃ z, solver { g with xyza := x } b s = .ok (some z) ∧ z.length = cols

/-- The same for the calls a run makes: on minus the residuals at an estimate; at the start the object holds nothing, later a vector of `cols` values. -/
structure GN.LsmrAnswers (g : GN α δ) (solver : LsmrObject α δ) (cols : Nat) : Prop where
  first : ∀ f, g.calcF g.xyza = .ok f → ∃ z, solver g (f.map fun x => -x) none = .ok (some z) ∧ z.length = cols
  next : ∀ x f w, x.length = g.xyza.length → g.calcF x = .ok f → w.length = cols →
    ∃ z, solver { g with xyza := x } (f.map fun x => -x) (some w) = .ok (some z) ∧ z.length = cols

theorem infNorm_total [LinearOrder α] {v : List α} (h : v ≠ []) : ∃ a, infNorm v = .ok a := by
  unfold infNorm
  rcases v with _ | ⟨x, v⟩
  · exact absurd rfl h
  · exact ⟨_, rfl⟩

/-- What the solver holds in the states of a run. -/
def GN.Holds (g : GN α δ) (cols : Nat) (st : GNState α) : Prop := st.solution = none ∧ st.xyza = g.xyza ∨ ∃ w, st.solution = some w ∧ w.length = cols

theorem iterate_total [LinearOrder α] (h : g.Setup ms labels clabels m N n) (hpos : 1 ≤ N.sum + n) {lsmr : LsmrObject α δ}
    (hl : g.LsmrAnswers lsmr (N.sum + n + labels.length)) (tol : GNTol α) {st : GNState α}
    (hx : st.xyza.length = N.sum + n + labels.length) (hr : g.calcF st.xyza = .ok st.residuals) (hw : g.Holds (N.sum + n + labels.length) st) :
    ∃ st', g.iterate lsmr tol st = .ok st' ∧ st'.xyza.length = N.sum + n + labels.length ∧ g.calcF st'.xyza = .ok st'.residuals ∧
      g.Holds (N.sum + n + labels.length) st' ∧ st'.cost ≠ none := by
  obtain ⟨z, h1, h1'⟩ : ∃ z, lsmr { g with xyza := st.xyza } (st.residuals.map fun x => -x) st.solution = .ok (some z) ∧ z.length = N.sum + n + labels.length := by
    rcases hw with ⟨e1, e2⟩ | ⟨w, e1, e2⟩
    · rw [e2] at hr ⊢
      rw [e1]
      exact hl.first _ hr
    · rw [e1]
      exact hl.next _ _ w (by rw [hx, h.xlen]) hr e2
  obtain ⟨d, h2, h2'⟩ := calcPx_total (h.at hx) false h1'
  have h3 : npZip (· + ·) st.xyza d = .ok (List.zipWith (· + ·) st.xyza d) := npZip_eq (by omega)
  have h3' : (List.zipWith (· + ·) st.xyza d).length = N.sum + n + labels.length := by rw [List.length_zipWith]; omega
  obtain ⟨f, h4, h4'⟩ := calcF_total (h.at h3') h3'
  obtain ⟨v, h5, h5'⟩ := getJPTx_total (h.at h3') h4'
  obtain ⟨nd, h6⟩ := infNorm_total (v := d) (by intro e; rw [e] at h2'; simp at h2'; omega)
  obtain ⟨nx, h7⟩ := infNorm_total (v := List.zipWith (· + ·) st.xyza d) (by intro e; rw [e] at h3'; simp at h3'; omega)
  obtain ⟨ng, h8⟩ := infNorm_total (v := v.map (2 * ·)) (by intro e; rw [List.map_eq_nil_iff] at e; rw [e] at h5'; simp at h5'; omega)
  refine ⟨_, bind_ok.2 ⟨some z, h1, bind_ok.2 ⟨z, rfl, bind_ok.2 ⟨d, h2, bind_ok.2 ⟨_, h3, bind_ok.2 ⟨f, h4, bind_ok.2 ⟨v, h5, bind_ok.2 ⟨nd, h6, bind_ok.2 ⟨nx, h7, bind_ok.2 ⟨ng, h8, rfl⟩⟩⟩⟩⟩⟩⟩⟩⟩, h3', h4, .inr ⟨z, rfl, h1'⟩, by simp⟩

theorem loop_total [LinearOrder α] (h : g.Setup ms labels clabels m N n) (hpos : 1 ≤ N.sum + n) {lsmr : LsmrObject α δ}
    (hl : g.LsmrAnswers lsmr (N.sum + n + labels.length)) (tol : GNTol α) : ∀ (k : Nat) {st : GNState α},
    st.xyza.length = N.sum + n + labels.length → g.calcF st.xyza = .ok st.residuals → g.Holds (N.sum + n + labels.length) st →
    (st.cost ≠ none ∨ 1 ≤ k ∧ st.conv = false) →
    ∃ st', g.loop lsmr tol k st = .ok st' ∧ st'.xyza.length = N.sum + n + labels.length ∧ g.calcF st'.xyza = .ok st'.residuals ∧ st'.cost ≠ none
  | 0, st, hx, hr, _, hc => ⟨st, rfl, hx, hr, by rcases hc with hc | ⟨hc, _⟩ <;> first | exact hc | omega⟩
  | k + 1, st, hx, hr, hw, hc => by
    unfold GN.loop
    by_cases hv : st.conv = true
    · rw [if_pos hv]
      exact ⟨st, rfl, hx, hr, by rcases hc with hc | ⟨_, hc⟩ <;> first | exact hc | (rw [hv] at hc; cases hc)⟩
    · rw [if_neg hv]
      obtain ⟨s1, e1, e2, e3, e4, e5⟩ := iterate_total h hpos hl tol hx hr hw
      obtain ⟨s2, f1, f2⟩ := loop_total h hpos hl tol k e2 e3 e4 (.inl e5)
      exact ⟨s2, bind_ok.2 ⟨s1, e1, f1⟩, f2⟩

theorem unitVec_total {k i : Nat} (h : i < k) : ∃ v : List α, unitVec k i = .ok v ∧ v.length = k := by
  unfold unitVec
  rw [if_pos h]
  exact ⟨_, rfl, by simp⟩

theorem mapM_total {β γ : Type} {f : β → Py γ} : ∀ {l : List β}, (∀ a ∈ l, ∃ b, f a = .ok b) → ∃ r, l.mapM f = .ok r
  | [], _ => ⟨[], rfl⟩
  | a :: l, h => by
    obtain ⟨b, hb⟩ := h a (by simp)
    obtain ⟨r, hr⟩ := mapM_total (l := l) fun x hx => h x (by simp [hx])
    rw [List.mapM_cons]
    exact ⟨b :: r, bind_ok.2 ⟨b, hb, bind_ok.2 ⟨r, hr, rfl⟩⟩⟩

theorem covariance_total (h : g.Setup ms labels clabels m N n) {minres : GN α δ → List α → Py (List α)}
    (hm : g.SolverSized minres (N.sum + n + labels.length) (N.sum + n + labels.length)) :
    ∃ V, g.covariance minres = .ok V := by
  have ha := h.a_len
  have key : ∀ i ∈ List.range g.hd.a.length, ∀ j ∈ List.range g.hd.a.length, ∃ v, g.covarianceIJ minres i j = .ok v := by
    intro i hi j hj
    rw [List.mem_range] at hi hj
    obtain ⟨c, hc, hcl⟩ := unitVec_total (α := α) (k := N.sum + n + g.hd.a.length) (i := N.sum + n + i) (by omega)
    obtain ⟨d, hd, hdl⟩ := unitVec_total (α := α) (k := N.sum + n + g.hd.a.length) (i := N.sum + n + j) (by omega)
    obtain ⟨pd, e1, e2⟩ := calcPx_total h true (x := d) (by omega)
    obtain ⟨z, e3, e4⟩ := hm g.xyza pd rfl (by omega)
    obtain ⟨pc, e5, e6⟩ := calcPx_total h true (x := c) (by omega)
    have hdot : ∃ v, npDot pc z = .ok v := by
      unfold npDot
      rw [if_pos (by omega)]
      exact ⟨_, rfl⟩
    obtain ⟨v, hv⟩ := hdot
    exact ⟨v, bind_ok.2 ⟨_, h.var_eq, bind_ok.2 ⟨c, hc, bind_ok.2 ⟨d, hd, bind_ok.2 ⟨pd, e1, bind_ok.2 ⟨z, e3, bind_ok.2 ⟨pc, e5, hv⟩⟩⟩⟩⟩⟩⟩
  unfold GN.covariance
  obtain ⟨V, hV⟩ : ∃ V, ((List.range g.hd.a.length).mapM fun i => (List.range g.hd.a.length).mapM fun j => g.covarianceIJ minres i j) = .ok V := by
    apply mapM_total
    intro i hi
    apply mapM_total
    intro j hj
    exact key i hi j hj
  exact ⟨_, bind_ok.2 ⟨V, hV, rfl⟩⟩

theorem pyIndex_total {β : Type} [DecidableEq β] {l : List β} {a : β} (h : a ∈ l) : ∃ i, pyIndex l a = .ok i ∧ i < l.length := by
  unfold pyIndex
  have := List.idxOf_lt_length_of_mem h
  rw [if_pos h]
  exact ⟨_, rfl, this⟩

theorem sysSensors_total {x : Idx} {unc : List (UncBlock α)} {n : Nat} (hl : unc.length ≤ x.n_sensor.length) (hs : ∀ s ∈ x.n_sensor, s < x.sensors.length)
    (h1 : ∀ u ∈ unc, u.unc.typeID = 2 ∨ u.unc.typeID = 4 → u.uS_i ≠ none)
    (h2 : ∀ k, 1 ≤ k → k ≤ n → ∃ u ∈ unc, u.uS_i = some k ∧ (u.unc.typeID = 2 ∨ u.unc.typeID = 4)) : ∃ l, sysSensors x unc n = .ok l := by
  unfold sysSensors
  have hq : ∀ u ∈ unc, (if u.unc.typeID == 2 || u.unc.typeID == 4 then match u.uS_i with
    | some i => (.ok i : Py Nat)
    | none => .error .attributeError
    else .ok 0) = .ok (if u.unc.typeID = 2 ∨ u.unc.typeID = 4 then u.uS_i.getD 0 else 0) := by
    intro u hu
    by_cases ht : u.unc.typeID = 2 ∨ u.unc.typeID = 4
    · rw [if_pos (by simpa using ht), if_pos ht]
      rcases hk : u.uS_i with _ | k
      · exact absurd hk (h1 u hu ht)
      · rfl
    · rw [if_neg (by simpa using ht), if_neg ht]
  obtain ⟨r, hr⟩ : ∃ r, ((List.range n).mapM fun k => do
      let b ← pyIndex (unc.map fun u => if u.unc.typeID = 2 ∨ u.unc.typeID = 4 then u.uS_i.getD 0 else 0) (k + 1)
      let s ← pyGet x.n_sensor b
      pyGet x.sensors s : Py (List String)) = .ok r := by
    apply mapM_total
    intro k hk
    rw [List.mem_range] at hk
    obtain ⟨u, hu, e1, e2⟩ := h2 (k + 1) (by omega) (by omega)
    obtain ⟨b, hb, hbl⟩ := pyIndex_total (l := unc.map fun u => if u.unc.typeID = 2 ∨ u.unc.typeID = 4 then u.uS_i.getD 0 else 0) (a := k + 1)
      (List.mem_map.2 ⟨u, hu, by rw [if_pos e2, e1]; rfl⟩)
    rw [List.length_map] at hbl
    have hb2 := List.getElem?_eq_getElem (l := x.n_sensor) (i := b) (by omega)
    have hs2 := hs _ (List.mem_of_getElem? hb2)
    exact ⟨_, bind_ok.2 ⟨b, hb, bind_ok.2 ⟨_, pyGet_some hb2, pyGet_some (List.getElem?_eq_getElem hs2)⟩⟩⟩
  exact ⟨r, bind_ok.2 ⟨_, mapM_ok_of hq, hr⟩⟩

/-- The parts of the tables used only to name the sensors of systematic effects: a number for each block with a systematic effect, the numbers
being those from 1, and a sensor for each block. -/
structure MatchUp.Named (mu : MatchUp α δ) : Prop where
  numbered : ∀ u ∈ mu.unc, u.unc.typeID = 2 ∨ u.unc.typeID = 4 → u.uS_i ≠ none
  onto : ∀ u ∈ mu.unc, ∀ k, u.uS_i = some k → ∀ j, 1 ≤ j → j ≤ k → ∃ v ∈ mu.unc, v.uS_i = some j ∧ (v.unc.typeID = 2 ∨ v.unc.typeID = 4)
  sensors : ∀ s ∈ mu.idx.n_sensor, s < mu.idx.sensors.length
  blocks : mu.unc.length ≤ mu.idx.n_sensor.length

/-- A run returns if its linear solves do. -/
theorem run_total [LinearOrder α] {ms : Evaluable α δ} {labels clabels : List String} {m : Nat} (h : ms.SolverReady labels clabels m)
    (hnm : ms.mu.Named) {g : GN α δ} (hg : g.Solves ms) (hpos : 1 ≤ g.hd.mu.values.length) {lsmr : LsmrObject α δ} {minres : GN α δ → List α → Py (List α)}
    (hl : g.LsmrAnswers lsmr (g.hd.mu.values.length + g.hd.a.length)) (rc : Bool)
    (hm : rc = true → ∀ x, x.length = g.xyza.length → ∃ V, GN.covariance { g with xyza := x } minres = .ok V) (tol : GNTol α) :
    ∃ res, g.run lsmr minres tol rc = .ok res := by
  obtain ⟨N, n, hs⟩ := hg.setup h
  obtain ⟨s1, s2, s3⟩ := hs.sizes
  rw [s1, s2] at hl
  rw [s1] at hpos
  obtain ⟨r0, h1, h1'⟩ := calcF_total hs hs.xlen
  obtain ⟨st, h2, h3, h4r, h5⟩ := loop_total hs hpos hl tol (N.sum + n)
    (st := { xyza := g.xyza, residuals := r0, cost_previous := sqNorm r0, cost := none, conv := false, niter := 0, log := [], solution := none }) hs.xlen h1 (.inl ⟨rfl, rfl⟩) (.inr ⟨hpos, rfl⟩)
  have h4 : st.residuals.length = N.sum + n + ms.mu.idx.Nm.sum := by
    obtain ⟨f, q1, q2⟩ := calcF_total hs h3
    rw [h4r] at q1; cases q1
    exact q2
  obtain ⟨V, h6⟩ : ∃ V, GN.runCovariance { g with xyza := st.xyza } minres rc (st.xyza.drop (N.sum + n)).length = .ok V := by
    unfold GN.runCovariance
    split
    · next hrc => exact hm hrc st.xyza (by rw [h3, hs.xlen])
    · exact ⟨_, rfl⟩
  obtain ⟨mu', h7, _⟩ := reverse_ok hs (xs := st.residuals.take (N.sum + n)) (by rw [List.length_take]; omega)
    (nm := g.hd.mu.bare (st.residuals.take (N.sum + n)) (st.residuals.drop (N.sum + n))) rfl rfl rfl rfl rfl (by simp [MatchUp.bare, h4])
    (by rw [← h.orig, ← hs.facts.orig]; rfl) (by rw [← hs.facts.unck]; rfl)
  have h8 : numSys g.hd.mu.unc = .ok n := by rw [hs.facts.unc]; exact hs.facts.sys
  obtain ⟨sys, h9⟩ : ∃ sys, GN.runSystematic { g with xyza := st.xyza } (N.sum + n) n = .ok sys := by
    unfold GN.runSystematic
    split
    · exact ⟨_, rfl⟩
    · rename_i hn
      obtain ⟨l, hl⟩ := sysSensors_total (x := g.hd.mu.idx) (unc := g.hd.mu.unc) (n := n)
        (by rw [hs.facts.unc, hs.facts.idx]; exact hnm.blocks) (by rw [hs.facts.idx]; exact hnm.sensors)
        (by rw [hs.facts.unc]; exact hnm.numbered)
        (by
          rw [hs.facts.unc]
          intro k hk1 hk2
          rcases (sysNums_ok hs.facts.sys).2 with e | ⟨u, hu, _, hk⟩
          · exact absurd e hn
          · exact hnm.onto u hu n hk k hk1 hk2)
      exact ⟨_, bind_ok.2 ⟨l, hl, rfl⟩⟩
  obtain ⟨c, h10⟩ := Option.ne_none_iff_exists'.1 h5
  exact ⟨_, bind_ok.2 ⟨_, hs.mu_eq, bind_ok.2 ⟨_, hs.var_eq, bind_ok.2 ⟨r0, h1, bind_ok.2 ⟨st, h2, bind_ok.2 ⟨V, h6, bind_ok.2 ⟨mu', h7, bind_ok.2 ⟨n, h8, bind_ok.2 ⟨sys, h9,
    bind_ok.2 ⟨c, by rw [h10]; rfl, rfl⟩⟩⟩⟩⟩⟩⟩⟩⟩⟩

/-- **C57.** On match-ups of the right sizes with at least one variable, and with linear solvers that return vectors of the right sizes (whatever their
values), a run always returns a result: it never raises and never fails to stop. -/
theorem C57_run_returns [LinearOrder α] {ms : Evaluable α δ} {labels clabels : List String} {m : Nat} (h : ms.SolverReady labels clabels m)
    (hnm : ms.mu.Named) {g : GN α δ} (hg : g.Solves ms) (hpos : 1 ≤ g.hd.mu.values.length) {lsmr : LsmrObject α δ} {minres : GN α δ → List α → Py (List α)}
    (hl : g.LsmrSized lsmr (g.hd.mu.values.length + g.hd.mu.ks.length) (g.hd.mu.values.length + g.hd.a.length))
    (hm : g.SolverSized minres (g.hd.mu.values.length + g.hd.a.length) (g.hd.mu.values.length + g.hd.a.length)) (tol : GNTol α) (rc : Bool) :
    ∃ res, g.run lsmr minres tol rc = .ok res := by
  refine run_total h hnm hg hpos ⟨fun f hf => ?_, fun x f w hx hf _ => ?_⟩ rc (fun _ x hx => ?_) tol
  · obtain ⟨N, n, hs⟩ := hg.setup h
    obtain ⟨f', q1, q2⟩ := calcF_total hs hs.xlen
    rw [hf] at q1; cases q1
    obtain ⟨s1, s2, s3⟩ := hs.sizes
    exact hl g.xyza _ none rfl (by rw [List.length_map, q2, s1, s3])
  · obtain ⟨N, n, hs⟩ := hg.setup h
    obtain ⟨f', q1, q2⟩ := calcF_total hs (x := x) (by rw [hx, hs.xlen])
    rw [hf] at q1; cases q1
    obtain ⟨s1, s2, s3⟩ := hs.sizes
    exact hl x _ _ hx (by rw [List.length_map, q2, s1, s3])
  · obtain ⟨N, n, hs⟩ := hg.setup h
    obtain ⟨s1, s2, s3⟩ := hs.sizes
    rw [s1, s2] at hm
    exact covariance_total (hs.at (by rw [hx, hs.xlen])) (fun y b hy hb => hm y b (by rw [hy]; exact hx) hb)

/-- **C57 for files.** -/
theorem C57_run_returns_files [DecidableEq α] [LinearOrder α] {env : ReadEnv α δ} (he : EnumOk env.enumNat) {ds : List (Dataset α)}
    {sd : SensorData α (SensorModel α δ) (AdjModel α)} {m : Nat} (hf : SolvableFiles ds sd m) {ms : Evaluable α δ}
    (h : openMatchUpWith env defaultAdjustment ds sd = .ok ms) {g : GN α δ} (hg : g.Solves ms) (hpos : 1 ≤ g.hd.mu.values.length)
    {lsmr : LsmrObject α δ} {minres : GN α δ → List α → Py (List α)}
    (hl : g.LsmrSized lsmr (g.hd.mu.values.length + g.hd.mu.ks.length) (g.hd.mu.values.length + g.hd.a.length))
    (hm : g.SolverSized minres (g.hd.mu.values.length + g.hd.a.length) (g.hd.mu.values.length + g.hd.a.length)) (tol : GNTol α) (rc : Bool) :
    ∃ res, g.run lsmr minres tol rc = .ok res := by
  obtain ⟨labels, clabels, hr⟩ := opened_solverReady he hf h
  refine C57_run_returns hr ?_ hg hpos hl hm tol rc
  obtain ⟨mu, e0, hmu, _, hms⟩ := openMatchUpWith_inv h
  obtain ⟨hor, hnum, hnum2, ⟨n, hcount⟩, hsame⟩ := opened_numbered env ds hf.consistent mu hmu
  obtain ⟨x, mx, hx, hi⟩ := getIdx_facts (openMatchUp_nonempty hmu)
  obtain ⟨x', hx', _, _, _, _, _, _, _, _, _, _, _, hidx, _⟩ := openMatchUp_inv hmu
  rw [hx] at hx'; cases hx'
  have hunc : ms.mu.unc = mu.unc := by rw [hms]
  have hse : ms.mu.idx.n_sensor = mu.idx.n_sensor := by rw [hms]; rfl
  have hss : ms.mu.idx.sensors = mu.idx.sensors := by rw [hms]; rfl
  refine ⟨?_, ?_, ?_, ?_⟩
  · rw [hunc]; exact fun u hu => (hnum u hu).2
  · rw [hunc]
    intro u hu k hk j h1 h2
    obtain ⟨v, hv, hj⟩ := (hcount j).2 ⟨h1, h2.trans ((hcount k).1 ⟨u, hu, hk⟩).2⟩
    exact ⟨v, hv, hj, (hnum2 v hv j hj).2⟩
  · rw [hse, hss]
    intro s hs
    rw [hidx] at hs ⊢
    change s ∈ x.n_sensor at hs
    show s < x.sensors.length
    rw [hi.n_sensor] at hs
    obtain ⟨⟨s', i, c⟩, hb, rfl⟩ := List.mem_map.1 hs
    obtain ⟨h1, _, h3, _⟩ := mem_blockList.1 hb
    rw [hi.ms_len]
    by_contra hcon
    rw [List.getD, List.getElem?_eq_none (by omega)] at h3
    simp at h3
    omega
  · have h1 := hr.wf.unc
    have h2 := hr.tables.1
    omega

/-! ### C58 -/

theorem colAt_sub (g : GN α δ) (T n k b : Nat) {x y : List α} (hx : T ≤ x.length) (hy : T ≤ y.length) (r : Nat) :
    g.colAt T n k b (List.zipWith (· - ·) (x.take T) (y.take T)) r = g.colAt T n k b x r - g.colAt T n k b y r := by
  unfold GN.colAt
  rw [← Finset.sum_sub_distrib]
  refine sum_congr rfl fun j hj => ?_
  have hj := Finset.mem_range.1 hj
  rw [← mul_sub]
  congr 1
  unfold ent
  simp only [List.getD, List.getElem?_zipWith, List.getElem?_take_of_lt hj, List.getElem?_eq_getElem (show j < x.length by omega),
    List.getElem?_eq_getElem (show j < y.length by omega), Option.getD_some]


/-- The residuals: the estimate minus the data, and the K of the estimate divided by its uncertainty minus the normalised K. -/
theorem calcF_parts (h : g.Setup ms labels clabels m N n) {x f : List α} (hx : x.length = N.sum + n + labels.length) (hf : g.calcF x = .ok f) :
    ∃ est k, (g.estimate x (N.sum + n) ms.mu.idx.Nm.sum).denormalise = .ok est ∧ evaluateK est (.num 0) = .ok k ∧ k.length = ms.mu.idx.Nm.sum ∧
      f = List.zipWith (· - ·) (x.take (N.sum + n)) (g.hd.mu.values.take (N.sum + n)) ++
        List.zipWith (· - ·) (List.zipWith (· / ·) k ms.mu.unck.flatten) g.hd.mu.ks := by
  obtain ⟨s1, s2, s3⟩ := h.sizes
  have hwf := h.ready.wf
  obtain ⟨est, hest, hidx, hunck, _⟩ := estimate_ok h hx
  unfold GN.calcF at hf
  rw [h.mu_eq] at hf
  obtain ⟨_, e, hf⟩ := bind_ok.1 hf; cases e
  rw [h.var_eq] at hf
  obtain ⟨_, e, hf⟩ := bind_ok.1 hf; cases e
  obtain ⟨d, h3, hf⟩ := bind_ok.1 hf
  obtain ⟨f0, h4, hf⟩ := bind_ok.1 hf
  obtain ⟨est', h5, hf⟩ := bind_ok.1 hf
  rw [hest] at h5; cases h5
  obtain ⟨k0, h6, hf⟩ := bind_ok.1 hf
  obtain ⟨k1, h7, hf⟩ := bind_ok.1 hf
  obtain ⟨dk, h8, hf⟩ := bind_ok.1 hf
  have hk0 : k0.length = ms.mu.idx.Nm.sum := by rw [evaluateK_length (by rw [hidx]; exact hwf.idx) h6, hidx]
  have hfl : ms.mu.unck.flatten.length = ms.mu.idx.Nm.sum := by rw [List.length_flatten, hwf.unck]
  refine ⟨est, k0, hest, h6, hk0, ?_⟩
  rw [hidx, hunck] at h7
  have hdiv := divideKs_eq (f := (· / · : α → α → α)) (ks := k0) hwf.idx.series h.ready.pairs hwf.unck hk0
  rw [hdiv] at h7
  cases h7
  rw [npZip_eq (by rw [List.length_zipWith]; omega)] at h8
  cases h8
  have hz : ∀ l : List α, slice l 0 (N.sum + n) = l.take (N.sum + n) := by intro l; simp [slice]
  rw [hz, hz, npZip_eq (by rw [List.length_take, List.length_take]; omega)] at h3
  cases h3
  have hd : (List.zipWith (· - ·) (x.take (N.sum + n)) (g.hd.mu.values.take (N.sum + n))).length = N.sum + n := by
    rw [List.length_zipWith, List.length_take, List.length_take]; omega
  rw [setSlice_eq (by omega) (by simp) (by rw [hd]; omega)] at h4
  cases h4
  have hfl2 : (List.take 0 (List.replicate (N.sum + n + ms.mu.idx.Nm.sum) (0 : α)) ++ List.zipWith (· - ·) (x.take (N.sum + n)) (g.hd.mu.values.take (N.sum + n)) ++
      List.drop (N.sum + n) (List.replicate (N.sum + n + ms.mu.idx.Nm.sum) (0 : α))).length = N.sum + n + ms.mu.idx.Nm.sum := by
    simp only [List.length_append, hd, List.take_zero, List.length_nil, List.length_drop, List.length_replicate]; omega
  rw [setSlice_eq (by omega) le_rfl (by simp only [List.length_zipWith]; omega)] at hf
  cases hf
  rw [List.drop_length, List.append_nil]
  congr 1
  rw [List.take_zero, List.nil_append, List.take_append_of_le_length (by omega), List.take_of_length_le (by omega)]

/-- **C58.** The residuals returned by a run, un-normalised: for every variable the final estimate minus the data, and for every match-up the K computed from
the final estimate minus the measured K (when the uncertainties of K are not zero). The data are those of the files when the match-up is normalisable
(C24); otherwise they are what the un-normalisation gives back. -/
theorem C58_residuals [LinearOrder α] {ms : Evaluable α δ} {labels clabels : List String} {m : Nat} (h : ms.SolverReady labels clabels m)
    {g : GN α δ} (hg : g.Solves ms) (hx2 : 2 ≤ g.xyza.length) {lsmr : LsmrObject α δ} {minres : GN α δ → List α → Py (List α)} {tol : GNTol α} {rc : Bool} {res : GNResult α}
    (hr : g.run lsmr minres tol rc = .ok res) :
    ∃ est back k, (g.estimate res.state.xyza g.hd.mu.values.length g.hd.mu.ks.length).denormalise = .ok est ∧ transformReverse g.hd.mu = .ok back ∧
      evaluateK est (.num 0) = .ok k ∧ est.mu.values.length = ms.mu.values.length ∧ back.values.length = ms.mu.values.length ∧ k.length = ms.mu.ks.length ∧
      res.values_res = List.zipWith (· - ·) est.mu.values back.values ∧
      ((∀ u ∈ ms.mu.unck, ∀ a ∈ u, a ≠ 0) → res.ks_res = List.zipWith (· - ·) k ms.mu.ks) ∧
      (ms.mu.Normalisable → back.values = ms.mu.values) := by
  obtain ⟨N_var, f, hlast, hsteps, _, _, _, _, _, _, _, hf, _⟩ := C32_loop hr
  have hfin : res.state.xyza.length = g.xyza.length := hsteps.length (by show g.xyza.length ≠ 1; omega)
  obtain ⟨N, n, hs⟩ := hg.setup h
  obtain ⟨s1, s2, s3⟩ := hs.sizes
  have hwf := h.wf
  have hxl : res.state.xyza.length = N.sum + n + labels.length := by rw [hfin, hs.xlen]
  have hres : ∃ mu', transformReverse (g.hd.mu.bare (f.take (N.sum + n)) (f.drop (N.sum + n))) = .ok mu' ∧ res.values_res = mu'.values ∧ res.ks_res = mu'.ks := by
    unfold GN.run at hr
    obtain ⟨N_mu, h1, hr⟩ := bind_ok.1 hr
    obtain ⟨N_var', h2, hr⟩ := bind_ok.1 hr
    rw [hs.var_eq] at h2; cases h2
    obtain ⟨r0, h3, hr⟩ := bind_ok.1 hr
    obtain ⟨st, h4, hr⟩ := bind_ok.1 hr
    obtain ⟨V, h5, hr⟩ := bind_ok.1 hr
    obtain ⟨rv, h6, hr⟩ := bind_ok.1 hr
    obtain ⟨n_uS, h7, hr⟩ := bind_ok.1 hr
    obtain ⟨sens, h8, hr⟩ := bind_ok.1 hr
    obtain ⟨cost, h9, hr⟩ := bind_ok.1 hr
    rw [pure_ok] at hr
    subst hr
    have hg0 : GNState.Good g { xyza := g.xyza, residuals := r0, cost_previous := sqNorm r0, cost := none, conv := false, niter := 0, log := [], solution := none } :=
      ⟨h3, sqNorm_dotp _, rfl, ⟨fun _ => rfl, by simp⟩, by simp⟩
    obtain ⟨hgd, _⟩ := GN.loop_spec hg0 h4
    have := hgd.res
    simp only at hf
    rw [hf] at this
    cases this
    exact ⟨rv, h6, rfl, rfl⟩
  obtain ⟨mu', hmu', e1, e2⟩ := hres
  obtain ⟨est, k, hest, hk, hkl, hfe⟩ := calcF_parts hs hxl hf
  have hfl : ms.mu.unck.flatten.length = ms.mu.idx.Nm.sum := by rw [List.length_flatten, hwf.unck]
  have hd : (List.zipWith (· - ·) (res.state.xyza.take (N.sum + n)) (g.hd.mu.values.take (N.sum + n))).length = N.sum + n := by
    rw [List.length_zipWith, List.length_take, List.length_take]; omega
  have ht : f.take (N.sum + n) = List.zipWith (· - ·) (res.state.xyza.take (N.sum + n)) (g.hd.mu.values.take (N.sum + n)) := by
    rw [hfe, List.take_append_of_le_length (by omega), List.take_of_length_le (by omega)]
  have hdr : f.drop (N.sum + n) = List.zipWith (· - ·) (List.zipWith (· / ·) k ms.mu.unck.flatten) g.hd.mu.ks := by
    rw [hfe, List.drop_append_of_le_length (by omega), List.drop_of_length_le (by omega), List.nil_append]
  have ho : ∀ a b : List α, (g.hd.mu.bare a b).original_idx = ms.mu.idx := fun a b => by rw [← h.orig, ← hs.facts.orig]; rfl
  have hu : ∀ a b : List α, (g.hd.mu.bare a b).unck = ms.mu.unck := fun a b => by rw [← hs.facts.unck]; rfl
  obtain ⟨m1, a1, _, _, _, _, _, _, _, a5, a6, a7⟩ := reverse_ok hs (xs := f.take (N.sum + n)) (by rw [ht, hd])
    (nm := g.hd.mu.bare (f.take (N.sum + n)) (f.drop (N.sum + n))) rfl rfl rfl rfl rfl
    (by show (f.drop (N.sum + n)).length = _; rw [hdr, List.length_zipWith, List.length_zipWith]; omega) (ho _ _) (hu _ _)
  rw [hmu'] at a1; cases a1
  obtain ⟨m2, b1, _, _, _, _, _, _, _, b5, b6, b7⟩ := reverse_ok hs (xs := g.hd.mu.values) s1 (nm := g.hd.mu) rfl rfl rfl rfl rfl s3
    (by rw [← h.orig, ← hs.facts.orig]) hs.facts.unck
  obtain ⟨m3, c1, _, _, _, _, _, _, _, c5, c6, c7⟩ := reverse_ok hs (xs := res.state.xyza.take (N.sum + n)) (by rw [List.length_take]; omega)
    (nm := g.hd.mu.bare (res.state.xyza.take (N.sum + n)) (List.replicate ms.mu.idx.Nm.sum 0)) rfl rfl rfl rfl rfl (by simp [MatchUp.bare]) (ho _ _) (hu _ _)
  have hem : est.mu = m3 := by
    obtain ⟨q, q1, q2⟩ := bind_ok.1 hest
    rw [pure_ok] at q2
    have : transformReverse (g.hd.mu.bare (res.state.xyza.take (N.sum + n)) (List.replicate ms.mu.idx.Nm.sum 0)) = .ok q := q1
    rw [c1] at this; cases this
    rw [← q2]
  refine ⟨est, m2, k, by rw [s1, s3]; exact hest, b1, hk, by rw [hem, c6, hwf.values], by rw [b6, hwf.values], by rw [hkl, hwf.ks], ?_, ?_, ?_⟩
  · rw [e1]
    refine slices_eq (N := ms.mu.idx.N_var) a6 (by rw [List.length_zipWith, hem, c6, b6]; simp) ?_
    intro b q hq
    have hzs : ∀ (u v : List α) a c, slice (List.zipWith (· - ·) u v) a c = List.zipWith (· - ·) (slice u a c) (slice v a c) := by
      intro u v a c
      unfold slice
      rw [List.drop_zipWith, List.take_zipWith]
    rw [hzs, hem, a7 b q hq, b7 b q hq, c7 b q hq, ht]
    rw [show ∀ a b : Nat → α, List.zipWith (· - ·) (vector q a) (vector q b) = vector q (fun i => a i - b i) from fun a b => by
      apply List.ext_getElem <;> simp [vector]]
    apply vector_congr
    intro r _
    rw [colAt_sub _ _ _ _ _ (by omega) (by omega), colAt_take]
  · intro h0
    rw [e2, a5]
    show List.zipWith (· * ·) (f.drop (N.sum + n)) _ = _
    have hks := hs.facts.ks
    rw [scaleKs_eq hwf.idx.series h.pairs hwf.unck hwf.ks] at hks
    rw [hdr, ← Except.ok.inj hks]
    have h0' : ∀ a ∈ ms.mu.unck.flatten, a ≠ 0 := by
      intro a ha
      obtain ⟨u, hu, hau⟩ := List.mem_flatten.1 ha
      exact h0 u hu a hau
    have hmk : ms.mu.ks.length = ms.mu.unck.flatten.length := by rw [hwf.ks, hfl]
    have hkk : k.length = ms.mu.unck.flatten.length := by rw [hkl, hfl]
    apply List.ext_getElem
    · simp only [List.length_zipWith]; omega
    · intro i i1 i2
      simp only [List.length_zipWith] at i1 i2
      simp only [List.getElem_zipWith]
      have := h0' (ms.mu.unck.flatten[i]'(by omega)) (List.getElem_mem _)
      field_simp
  · intro hn
    obtain ⟨nm, mu2, f1, f2, f3, _⟩ := C24_roundtrip_partial hn
    obtain ⟨nm', f4, f5⟩ := normalise_ok hg.norm
    have hgm : g.hd.mu = nm' := by rw [f5]
    rw [f4] at f1
    cases f1
    rw [hgm, f2] at b1
    cases b1
    exact f3
end

open Fixture in
/-- The hypotheses of C57 and C58 are met: on the rolling-average file every run with this stand-in for the linear solver returns, whatever the tolerances, and
its residuals are differences from the data of the file. -/
theorem C58_case : ∃ (ms : Evaluable ℚ Int) (g : GN ℚ Int) (labels clabels : List String), openMatchUpWith qenv defaultAdjustment [rolling] gnModels = .ok ms ∧
    ms.SolverReady labels clabels 2 ∧ g.Solves ms ∧ ms.mu.Normalisable ∧ g.hd.mu.values.length = 16 ∧
    ∀ tol rc, ∃ res, g.run descentO descent tol rc = .ok res := by
  obtain ⟨ms, g, labels, clabels, h0, hr, hs, l1, l2, l3, _⟩ := C28_case
  have ho := (gnStart_inv h0).1
  obtain ⟨ms', h1, h2⟩ := check_ok' (x := (openMatchUpWith qenv defaultAdjustment [rolling] gnModels : Py (Evaluable ℚ Int))) (fun ms => normOk ms.mu) (by decide +kernel)
  simp only at ho
  rw [ho] at h1; cases h1
  have hd : ∀ r, g.SolverSized descent r 18 := fun r x b _ _ => ⟨_, rfl, by simp⟩
  have hdO : ∀ r, g.LsmrSized descentO r 18 := fun r x b s _ _ => ⟨_, rfl, by simp⟩
  refine ⟨ms, g, labels, clabels, ho, hr, hs, normOk_spec hr.wf h2, l1, fun tol rc => ?_⟩
  exact C57_run_returns_files qenv_enum rolling_solvable ho hs (by omega) (by rw [l1, l2]; exact hdO _) (by rw [l1, l2]; exact hd _) tol rc

end Verif
