import Verif.Props.Result
import Verif.Props.ResultRes
import Verif.Lemmas.Transform
import Mathlib.Algebra.Field.Rat
/-
Property C40: residuals written and read back. Property C64: reopening what a run saved.
-/
set_option autoImplicit false
namespace Verif
variable {α : Type}

theorem perm_map_lift {β γ : Type} (f : β → γ) : ∀ (l : List γ) (fs : List β), l.Perm (fs.map f) → ∃ gs : List β, gs.Perm fs ∧ gs.map f = l
  | [], fs, h => by
    have : fs = [] := by have := h.length_eq; simp at this; exact List.length_eq_zero_iff.1 this.symm
    exact ⟨[], by simp [this], rfl⟩
  | a :: l, fs, h => by
    have ha : a ∈ fs.map f := h.subset (by simp)
    obtain ⟨g, hg, rfl⟩ := List.mem_map.1 ha
    obtain ⟨s, t, rfl⟩ := List.append_of_mem hg
    have h' : l.Perm ((s ++ t).map f) := by
      have h1 : ((s ++ g :: t).map f).Perm (f g :: (s ++ t).map f) := (List.perm_middle (a := g) (l₁ := s) (l₂ := t)).map f
      exact (List.perm_cons _).1 (h.trans h1)
    obtain ⟨gs, e1, e2⟩ := perm_map_lift f l (s ++ t) h'
    exact ⟨g :: gs, (e1.cons g).trans List.perm_middle.symm, by simp [e2]⟩

theorem mapM_readRes (d : Dir α) (nm : ResFile α → List Char) : ∀ gs : List (ResFile α), (∀ g ∈ gs, d.lookup (nm g) = some (.res g)) → (gs.map nm).mapM d.readRes = .ok gs
  | [], _ => rfl
  | g :: gs, h => by
    have e : d.readRes (nm g) = .ok g := by unfold Dir.readRes; rw [h g (by simp)]
    rw [List.map_cons, List.mapM_cons, e, mapM_readRes d nm gs (fun x hx => h x (by simp [hx]))]
    rfl

theorem resSide_X [Zero α] {fill : α} {x : Idx} {v : Option (List α)} {i s M : Nat} {name : String} {r : ResSide α} (h : resSide fill x v i s M name = .ok r) :
    (v = none → r.X = none) ∧ (v ≠ none → ∃ m, x.sensor_ms[s]? = some m ∧ r.X = some (m, fun _ _ => fill)) := by
  unfold resSide at h
  split at h
  · cases h; exact ⟨fun _ => rfl, fun h => absurd rfl h⟩
  · obtain ⟨m, h1, h⟩ := bind_ok.1 h
    obtain ⟨c, -, h⟩ := bind_ok.1 h
    rw [pure_ok] at h; subst h
    exact ⟨fun h => by simp at h, fun _ => ⟨m, pyGet_inv h1, rfl⟩⟩

/-- What is in the directory after saving with residuals, and what `openResult` reads from it. -/
theorem saved_files [Zero α] {fill : α} {dir' : Dir α} {fname : List Char} (ho : OutputName fname) {r : HarmResult α}
    (hu : ∀ s ∈ r.idx.sensors, '_' ∉ s.toList ∧ '\n' ∉ s.toList) (hp : r.idx.pairNames.Nodup) (hne : r.idx.Im ≠ [])
    (h : r.save fill [] fname true = .ok dir') {listing : List (List Char)} (hl : listing.Perm dir'.names) :
    ∃ f fs gs, r.writeOutput = .ok f ∧ fs.length = r.idx.Im.length ∧
      (∀ (i : Nat) (p : Nat × Nat), r.idx.Im[i]? = some p → ∃ f, fs[i]? = some f ∧ resFile fill r.idx r.values r.ks i p = .ok f) ∧
      fs.map (fun f => (f.s1.name, f.s2.name)) = r.idx.pairNames ∧ gs.Perm fs ∧
      openResult dir' listing true = (do
        let o ← f.open
        let q ← openResiduals gs
        pure ({ o with attrs := q.attrs }, some q)) := by
  have hnames : ∀ s ∈ r.idx.sensors, '\n' ∉ s.toList := fun s hs => (hu s hs).2
  obtain ⟨hout, hres⟩ := C41_found ho (dir := []) (by simp [Dir.names]) (by simp [Dir.names]) hnames h hl
  obtain ⟨hnd, -⟩ := C42_distinct_partial ho hp hu h
  obtain ⟨f, hf, -, h2⟩ := save_ok h
  obtain ⟨fs, g1, hd, g3⟩ := h2 rfl
  have hpe := written_pairs g1 g3
  have hfn : (fs.map fun f => resName fname f.s1.name f.s2.name) = r.idx.pairNames.map fun p => resName fname p.1 p.2 := by rw [← hpe, List.map_map]; rfl
  have hfs : fs ≠ [] := by rintro rfl; simp at g1; exact hne (List.length_eq_zero_iff.1 g1.symm)
  have hmemN : ∀ n, n ∈ listing.filter resRule ↔ n ∈ fs.map fun f => resName fname f.s1.name f.s2.name := by
    intro n
    rw [hfn, List.mem_map]
    have := hres n
    unfold findResiduals at this
    cases e : listing.filter resRule with
    | nil => rw [e] at this; simp only [List.not_mem_nil, false_iff]; intro ⟨p, h1, h2⟩; obtain ⟨l, h3, -⟩ := this.2 ⟨p, h1, h2.symm⟩; cases h3
    | cons a l =>
      rw [e] at this
      simp only [Option.some.injEq, exists_eq_left'] at this
      rw [this]
      exact ⟨fun ⟨p, a, b⟩ => ⟨p, a, b.symm⟩, fun ⟨p, a, b⟩ => ⟨p, a, b.symm⟩⟩
  have hlnd : (listing.filter resRule).Nodup := by
    apply List.Nodup.filter
    rw [hl.nodup_iff, hd]
    exact putAll_nodup _ _ _ (by rw [put_names]; simp [Dir.names])
  have hperm : (listing.filter resRule).Perm (fs.map fun f => resName fname f.s1.name f.s2.name) :=
    (List.perm_ext_iff_of_nodup hlnd (by rw [hfn]; exact hnd)).2 hmemN
  obtain ⟨gs, hgs, hmap⟩ := perm_map_lift _ _ _ hperm
  have hread : (listing.filter resRule).mapM dir'.readRes = .ok gs := by
    rw [← hmap]
    apply mapM_readRes
    intro g hg
    rw [hd]
    exact putAll_lookup _ _ _ (by rw [hfn]; exact hnd) (hgs.mem_iff.1 hg)
  have hfr : findResiduals listing = some (listing.filter resRule) := by
    unfold findResiduals
    cases e : listing.filter resRule with
    | nil =>
      rw [e] at hperm
      have := hperm.length_eq
      simp at this
      exact absurd this.symm (by simpa using hfs)
    | cons a l => rfl
  have hro : dir'.readOut fname = .ok f := by
    unfold Dir.readOut
    have : dir'.lookup fname = some (.out f) := by
      rw [hd, putAll_lookup_other, put_lookup, if_pos rfl]
      intro g hg
      have hgm : (g.s1.name, g.s2.name) ∈ r.idx.pairNames := by rw [← hpe]; exact List.mem_map.2 ⟨g, hg, rfl⟩
      obtain ⟨i, hi⟩ := List.getElem?_of_mem hg
      have hil : i < r.idx.Im.length := by rw [← g1]; exact (List.getElem?_eq_some_iff.1 hi).1
      obtain ⟨g', e1, e2⟩ := g3 i _ (List.getElem?_eq_getElem hil)
      rw [hi] at e1; cases e1
      obtain ⟨k1, k2, -⟩ := resFile_ok e2
      exact (resName_rules ho (hnames _ (List.mem_of_getElem? k1)) (hnames _ (List.mem_of_getElem? k2))).2.2.symm
    rw [this]
  refine ⟨f, fs, gs, hf, g1, g3, hpe, hgs, ?_⟩
  unfold openResult
  simp only [hout, bind, Except.bind, hro, hfr, if_true, hread]

/-- The files written for a result with distinct sensors and, in every series, two different ones are a consistent set. -/
theorem saved_consistent [Zero α] {fill : α} {r : HarmResult α} {fs gs : List (ResFile α)} (hs : r.idx.sensors.Nodup) (hpn : ∀ p ∈ r.idx.pairNames, p.1 ≠ p.2)
    (hpe : fs.map (fun f => (f.s1.name, f.s2.name)) = r.idx.pairNames) (hlen : fs.length = r.idx.Im.length)
    (h : ∀ (i : Nat) (p : Nat × Nat), r.idx.Im[i]? = some p → ∃ f, fs[i]? = some f ∧ resFile fill r.idx r.values r.ks i p = .ok f) (hg : gs.Perm fs) :
    ConsistentRes gs := by
  have hget : ∀ f ∈ fs, ∃ i p, r.idx.Im[i]? = some p ∧ resFile fill r.idx r.values r.ks i p = .ok f := by
    intro f hf
    obtain ⟨i, hi⟩ := List.getElem?_of_mem hf
    have hil : i < r.idx.Im.length := by rw [← hlen]; exact (List.getElem?_eq_some_iff.1 hi).1
    obtain ⟨g', e1, e2⟩ := h i _ (List.getElem?_eq_getElem hil)
    rw [hi] at e1; cases e1
    exact ⟨i, _, List.getElem?_eq_getElem hil, e2⟩
  constructor
  · intro f hf
    rw [hg.mem_iff] at hf
    refine ⟨hpn _ (by rw [← hpe]; exact List.mem_map.2 ⟨f, hf, rfl⟩), ?_⟩
    obtain ⟨i, p, -, e⟩ := hget f hf
    obtain ⟨-, -, -, -, -, a, b, ks, -, -, -, hk⟩ := resFile_ok e
    have := (setSlice_get hk (Nat.zero_le _) (by simp)).1
    simpa using this
  · have key : ∀ f ∈ fs, ∀ s ∈ [f.s1, f.s2], ∃ n : Nat, r.idx.sensors[n]? = some s.name ∧ (r.values = none → s.X = none) ∧
        (r.values ≠ none → ∃ m, r.idx.sensor_ms[n]? = some m ∧ s.X = some (m, fun _ _ => fill)) := by
      intro f hf s hsm
      obtain ⟨i, p, -, e⟩ := hget f hf
      obtain ⟨k1, k2, -, k4, k5, -⟩ := resFile_ok e
      simp only [List.mem_cons, List.not_mem_nil, or_false] at hsm
      rcases hsm with rfl | rfl
      · exact ⟨_, k1, resSide_X k4⟩
      · exact ⟨_, k2, resSide_X k5⟩
    intro f hf g hg' s hsm t htm hst
    rw [hg.mem_iff] at hf hg'
    obtain ⟨n1, a1, a2, a3⟩ := key f hf s hsm
    obtain ⟨n2, b1, b2, b3⟩ := key g hg' t htm
    have hn : n1 = n2 := by
      rw [← idxOf_of_getElem? hs a1, ← idxOf_of_getElem? hs b1, hst]
    subst hn
    by_cases hv : r.values = none
    · rw [a2 hv, b2 hv]
    · obtain ⟨m, c1, c2⟩ := a3 hv
      obtain ⟨m', d1, d2⟩ := b3 hv
      rw [c1] at d1; cases d1
      rw [c2, d2]

/-- **C40 (part) and C39 for a whole directory.** A result with its residuals is saved under an ordinary name; the sensors have different names, without underscores,
and no two series have the same sensors; either there are no `X` residuals, or the first sensor of every series has one covariate. However the directory is listed, it
can be opened; parameters, covariance, statistics and sensor names are those saved; every series is there with its sensors, and its K residuals are those saved.
Missing from C40: the `X` residuals (see `C40_values_lost`). -/
theorem C40_k_residuals_partial [Zero α] {fill : α} {dir' : Dir α} {fname : List Char} (ho : OutputName fname) {r : HarmResult α}
    (hn : ∀ s ∈ r.sensors, NoEdgeBlanks s) (hv : ∀ v ∈ r.vars, ∀ s ∈ v.2.nameList, NoEdgeBlanks s) (ha : PlainAttrs r.attrs)
    (hu : ∀ s ∈ r.idx.sensors, '_' ∉ s.toList ∧ '\n' ∉ s.toList) (hs : r.idx.sensors.Nodup) (hp : r.idx.pairNames.Nodup)
    (hpn : ∀ p ∈ r.idx.pairNames, p.1 ≠ p.2) (hne : r.idx.Im ≠ []) (hcN : r.idx.cNm = prefixSums r.idx.Nm) (hNm : r.idx.Nm.length = r.idx.Im.length)
    {ks : List α} (hks : r.ks = some ks) (hkl : ks.length = r.idx.Nm.sum)
    (hfirst : r.values = none ∨ ∀ p ∈ r.idx.Im, r.idx.sensor_ms[p.1]? = some 1)
    (h : r.save fill [] fname true = .ok dir') {listing : List (List Char)} (hl : listing.Perm dir'.names) :
    ∃ o q, openResult dir' listing true = .ok (o, some q) ∧
      o.parameter = r.parameter ∧ o.sensors = r.sensors ∧ r.covariance = some o.covariance ∧ o.cost = r.cost ∧ o.dof = r.dof ∧ o.pValue = r.pValue ∧
      q.idx.Im.length = r.idx.Im.length ∧ q.ks.length = ks.length ∧
      (∀ (i : Nat) (p : String × String), r.idx.pairNames[i]? = some p → ∃ j : Nat, q.idx.pairNames[j]? = some p ∧
        ∃ a b lo hi, r.idx.cNm[i]? = some a ∧ r.idx.cNm[i + 1]? = some b ∧ q.idx.cNm[j]? = some lo ∧ q.idx.cNm[j + 1]? = some hi ∧
          slice q.ks lo hi = slice ks a b) ∧
      (∀ (j : Nat) (p : String × String), q.idx.pairNames[j]? = some p → p ∈ r.idx.pairNames) := by
  obtain ⟨f, fs, gs, e1, e2, e3, e4, e5, e6⟩ := saved_files ho hu hp hne h hl
  have hc := saved_consistent hs hpn e4 e2 e3 e5
  obtain ⟨o, o1, o2, o3, o4, o5, o6, o7, -⟩ := C39_output_roundtrip hn hv ha e1
  have hgne : gs ≠ [] := by
    rintro rfl
    have := e5.length_eq
    rw [e2] at this
    exact hne (List.length_eq_zero_iff.1 this.symm)
  have hget : ∀ f ∈ fs, ∃ i p, r.idx.Im[i]? = some p ∧ resFile fill r.idx r.values r.ks i p = .ok f := by
    intro f hf
    obtain ⟨i, hi⟩ := List.getElem?_of_mem hf
    have hil : i < r.idx.Im.length := by rw [← e2]; exact (List.getElem?_eq_some_iff.1 hi).1
    obtain ⟨g', q1, q2⟩ := e3 i _ (List.getElem?_eq_getElem hil)
    rw [hi] at q1; cases q1
    exact ⟨i, _, List.getElem?_eq_getElem hil, q2⟩
  have h1 : resAvailable gs = true → ∀ f0, gs.head? = some f0 → f0.s1.X.map (·.1) = some 1 := by
    intro hav f0 hf0
    have hm : f0 ∈ gs := List.mem_of_mem_head? hf0
    obtain ⟨i, p, k1, k2⟩ := hget f0 (e5.mem_iff.1 hm)
    obtain ⟨-, -, -, k4, -, -⟩ := resFile_ok k2
    have hX := resSide_X k4
    have hsome : f0.s1.X.isSome := by
      have := List.all_eq_true.1 hav f0 hm
      simp only [Bool.and_eq_true] at this
      exact this.1
    rcases hfirst with hv0 | hm1
    · rw [hX.1 hv0] at hsome; cases hsome
    · by_cases hv0 : r.values = none
      · rw [hX.1 hv0] at hsome; cases hsome
      · obtain ⟨m, c1, c2⟩ := hX.2 hv0
        rw [hm1 p (List.mem_of_getElem? k1)] at c1; cases c1
        rw [c2]; rfl
  obtain ⟨q, q1, q2, q3, q4, q5, -, -⟩ := C43_structure hgne hc h1
  have hqIm : q.idx.Im.length = gs.length := by
    obtain ⟨x, mx, hx, hfx⟩ := resIdx_facts hgne (fun f hf => (hc.1 f hf).1)
    have : q.idx = x := by
      unfold openResiduals at q1
      obtain ⟨f0, -, q1⟩ := bind_ok.1 q1
      obtain ⟨x', hx', q1⟩ := bind_ok.1 q1
      obtain ⟨vs, -, q1⟩ := bind_ok.1 q1
      obtain ⟨n, -, q1⟩ := bind_ok.1 q1
      obtain ⟨k, -, q1⟩ := bind_ok.1 q1
      rw [pure_ok] at q1; subst q1
      rw [hx] at hx'; cases hx'; rfl
    rw [this, hfx.Im]; simp
  have hqp : ∀ (j : Nat) (g : ResFile α), gs[j]? = some g → q.idx.pairNames[j]? = some (g.s1.name, g.s2.name) := by
    intro j g hg
    obtain ⟨a, b, k1, k2, k3, -⟩ := q4 j g hg
    unfold Idx.pairNames
    rw [List.getElem?_map, k1]
    simp [List.getD, k2, k3]
  refine ⟨{ o with attrs := q.attrs }, q, by rw [e6, o1, q1]; rfl, o2, o3, o4, o5, o6, o7, by rw [hqIm, e5.length_eq, e2], ?_, ?_, ?_⟩
  · have hM : fs.map (·.M) = r.idx.Nm := by
      apply List.ext_getElem?
      intro i
      rw [List.getElem?_map]
      by_cases hil : i < r.idx.Im.length
      · obtain ⟨g, g1, g2⟩ := e3 i _ (List.getElem?_eq_getElem hil)
        rw [g1, (resFile_ok g2).2.2.1]; rfl
      · rw [List.getElem?_eq_none (by omega), List.getElem?_eq_none (by omega)]; rfl
    rw [q5, (e5.map _).sum_eq, hM, hkl]
  · intro i p hi
    have hil : i < r.idx.Im.length := by
      have := (List.getElem?_eq_some_iff.1 hi).1
      simpa [Idx.pairNames] using this
    obtain ⟨g, g1, g2⟩ := e3 i _ (List.getElem?_eq_getElem hil)
    have hgp : (g.s1.name, g.s2.name) = p := by
      have : (fs.map fun f => (f.s1.name, f.s2.name))[i]? = some (g.s1.name, g.s2.name) := by rw [List.getElem?_map, g1]; rfl
      rw [e4, hi] at this
      exact (Option.some.inj this).symm
    obtain ⟨j, hj⟩ := List.getElem?_of_mem (e5.mem_iff.2 (List.mem_of_getElem? g1))
    obtain ⟨-, -, k1, -, -, a, b, ks', k2, k3, k4, k5⟩ := resFile_ok g2
    rw [hks] at k4; cases k4
    obtain ⟨-, -, -, -, -, lo, hi', l1, l2, l3⟩ := q4 j g hj
    refine ⟨j, by rw [hqp j g hj, hgp], a, b, lo, hi', k2, k3, l1, l2, ?_⟩
    rw [l3]
    rw [hcN] at k2 k3
    have hiN : i < r.idx.Nm.length := by omega
    rw [prefixSums_getElem?_of_le _ (by omega)] at k2 k3
    cases k2; cases k3
    have hd : (r.idx.Nm.take (i + 1)).sum = (r.idx.Nm.take i).sum + g.M := by
      rw [List.take_add_one, List.sum_append, k1]; simp
    have hle : (r.idx.Nm.take (i + 1)).sum ≤ ks.length := by
      rw [hkl]
      conv_rhs => rw [← List.take_append_drop (i + 1) r.idx.Nm, List.sum_append]
      omega
    have hsl : (slice ks (r.idx.Nm.take i).sum (r.idx.Nm.take (i + 1)).sum).length = g.M := by
      simp only [slice, List.length_take, List.length_drop]
      omega
    rw [setSlice_eq (Nat.zero_le _) (by simp) (by rw [hsl]; rfl)] at k5
    rw [← Except.ok.inj k5]
    simp
  · intro j p hj
    have hjl : j < gs.length := by
      have := (List.getElem?_eq_some_iff.1 hj).1
      rw [← hqIm]; simpa [Idx.pairNames] using this
    rw [hqp j _ (List.getElem?_eq_getElem hjl)] at hj
    cases hj
    rw [← e4]
    exact List.mem_map.2 ⟨_, e5.mem_iff.1 (List.getElem_mem hjl), rfl⟩

/-- **C40 is false of the code.** Whatever the `X` residuals saved, those read back are all netCDF's fill value. -/
theorem C40_values_lost [Zero α] {fill : α} {dir' : Dir α} {fname : List Char} (ho : OutputName fname) {r : HarmResult α}
    (hu : ∀ s ∈ r.idx.sensors, '_' ∉ s.toList ∧ '\n' ∉ s.toList) (hs : r.idx.sensors.Nodup) (hp : r.idx.pairNames.Nodup)
    (hpn : ∀ p ∈ r.idx.pairNames, p.1 ≠ p.2) (hne : r.idx.Im ≠ []) (hm : ∀ m ∈ r.idx.sensor_ms, 1 ≤ m)
    (h : r.save fill [] fname true = .ok dir') {listing : List (List Char)} (hl : listing.Perm dir'.names)
    {o : OpenedOutput α} {q : OpenedResiduals α} (hopen : openResult dir' listing true = .ok (o, some q)) {v : List α} (hq : q.values = some v)
    {b : Nat} (hb : b < q.idx.blocks.length) : ∃ lo hi, q.idx.idx[b]? = some lo ∧ q.idx.idx[b + 1]? = some hi ∧ ∀ y ∈ slice v lo hi, y = fill := by
  obtain ⟨f, fs, gs, e1, e2, e3, e4, e5, e6⟩ := saved_files ho hu hp hne h hl
  have hc := saved_consistent hs hpn e4 e2 e3 e5
  rw [e6] at hopen
  obtain ⟨o', ho', hopen⟩ := bind_ok.1 hopen
  obtain ⟨q', hq', hopen⟩ := bind_ok.1 hopen
  rw [pure_ok] at hopen
  cases hopen
  have hgne : gs ≠ [] := by
    rintro rfl
    have := e5.length_eq
    rw [e2] at this
    exact hne (List.length_eq_zero_iff.1 this.symm)
  have hX : ∀ g ∈ gs, ∀ s, (s = g.s1 ∨ s = g.s2) → ∀ m X, s.X = some (m, X) → 1 ≤ m ∧ X = fun _ _ => fill := by
    intro g hg s hsm m X hXs
    obtain ⟨i, hi⟩ := List.getElem?_of_mem (e5.mem_iff.1 hg)
    have hil : i < r.idx.Im.length := by rw [← e2]; exact (List.getElem?_eq_some_iff.1 hi).1
    obtain ⟨g', q1, q2⟩ := e3 i _ (List.getElem?_eq_getElem hil)
    rw [hi] at q1; cases q1
    obtain ⟨-, -, -, k4, k5, -⟩ := resFile_ok q2
    have hh : (r.values = none → s.X = none) ∧ (r.values ≠ none → ∃ m, 1 ≤ m ∧ s.X = some (m, fun _ _ => fill)) := by
      rcases hsm with rfl | rfl
      · exact ⟨(resSide_X k4).1, fun h => by obtain ⟨m, h1, h2⟩ := (resSide_X k4).2 h; exact ⟨m, hm m (List.mem_of_getElem? h1), h2⟩⟩
      · exact ⟨(resSide_X k5).1, fun h => by obtain ⟨m, h1, h2⟩ := (resSide_X k5).2 h; exact ⟨m, hm m (List.mem_of_getElem? h1), h2⟩⟩
    by_cases hv : r.values = none
    · rw [hh.1 hv] at hXs; cases hXs
    · obtain ⟨m', h1, h2⟩ := hh.2 hv
      rw [h2] at hXs; cases hXs; exact ⟨h1, rfl⟩
  cases hav : resAvailable gs with
  | false =>
    obtain ⟨q'', q1, -, -, -, -, q6, -⟩ := C43_structure hgne hc (fun h => by rw [hav] at h; cases h)
    rw [hq'] at q1; cases q1
    rw [q6 hav] at hq; cases hq
  | true =>
    cases hh : gs.head? with
    | none => rw [List.head?_eq_none_iff] at hh; exact absurd hh hgne
    | some f0 =>
      have hf0 : f0 ∈ gs := List.mem_of_mem_head? hh
      have hs0 : f0.s1.X.isSome := by
        have := List.all_eq_true.1 hav f0 hf0
        simp only [Bool.and_eq_true] at this
        exact this.1
      obtain ⟨⟨m, X⟩, hmX⟩ := Option.isSome_iff_exists.1 hs0
      -- the first sensor has one covariate, or the files could not have been opened
      have hm1 : m = 1 := by
        by_contra hcon
        have h1 := (hX f0 hf0 f0.s1 (.inl rfl) m X hmX).1
        have := C43_first_sensor_fails hc hav hh (m := m) (by rw [hmX]; rfl) (by omega)
        rw [this] at hq'; cases hq'
      subst hm1
      obtain ⟨q'', q1, -, q3, -, -, -, q7⟩ := C43_structure hgne hc (fun _ g hg => by rw [hh] at hg; cases hg; rw [hmX]; rfl)
      rw [hq'] at q1; cases q1
      obtain ⟨v', w1, w2, w3, w4, w5, w6⟩ := q7 hav
      rw [hq] at w1; cases w1
      obtain ⟨⟨a, i, c⟩, hbe⟩ : ∃ t, q.idx.blocks[b]? = some t := ⟨_, List.getElem?_eq_getElem hb⟩
      obtain ⟨i1, c1, g, s, m, X', g1, g2, g3, g4, g5⟩ := w6 b a i c hbe
      obtain ⟨b', a', lo, hi, r1, r2, r3, r4, r5⟩ := w5 (i - 1) g s m X' (c - 1) g1 g2 g4 (by omega)
      rw [Nat.sub_add_cancel i1, Nat.sub_add_cancel c1] at r1
      have haa : a' = a := by rw [← idxOf_of_getElem? q3 r2, idxOf_of_getElem? q3 g3]
      subst haa
      have hbb : b' = b := by rw [← idxOf_of_getElem? w2 r1, idxOf_of_getElem? w2 hbe]
      subst hbb
      refine ⟨lo, hi, r3, r4, ?_⟩
      rw [r5, (hX g (List.mem_of_getElem? g1) s g2 m X' g4).2]
      intro y hy
      simp only [column, List.mem_map] at hy
      obtain ⟨_, _, rfl⟩ := hy
      rfl

/-- Saving without the residuals. -/
theorem saved_alone [Zero α] {fill : α} {dir' : Dir α} {fname : List Char} (ho : OutputName fname) {r : HarmResult α} (h : r.save fill [] fname false = .ok dir')
    {listing : List (List Char)} (hl : listing.Perm dir'.names) :
    ∃ f, r.writeOutput = .ok f ∧ findOutput listing = .ok fname ∧ findResiduals listing = none ∧ dir'.readOut fname = .ok f := by
  obtain ⟨f, hf, h1, -⟩ := save_ok h
  have hd := h1 rfl
  have hn : dir'.names = [fname] := by rw [hd, put_names]; simp [Dir.names]
  rw [hn, List.perm_singleton] at hl
  have hfo : outRule fname = true := by
    obtain ⟨t, rfl, hn, hr⟩ := ho
    exact (outRule_harm hn).2 hr
  have hfr : resRule fname = false := by
    rw [Bool.eq_false_iff]; intro hh; exact C41_exclusive _ ⟨hfo, hh⟩
  refine ⟨f, hf, ?_, ?_, ?_⟩
  · rw [hl]; unfold findOutput; rw [List.filter_cons_of_pos hfo]; rfl
  · rw [hl]; unfold findResiduals; rw [List.filter_cons_of_neg (by rw [hfr]; decide)]; rfl
  · unfold Dir.readOut; rw [hd, put_lookup, if_pos rfl]

/-- **C64 (part).** A result saved without residuals can be opened without residuals, and then all of it comes back. -/
theorem C64_output_only_partial [Zero α] {fill : α} {dir' : Dir α} {fname : List Char} (ho : OutputName fname) {r : HarmResult α}
    (hn : ∀ s ∈ r.sensors, NoEdgeBlanks s) (hv : ∀ v ∈ r.vars, ∀ s ∈ v.2.nameList, NoEdgeBlanks s) (ha : PlainAttrs r.attrs)
    (h : r.save fill [] fname false = .ok dir') {listing : List (List Char)} (hl : listing.Perm dir'.names) :
    ∃ o, openResult dir' listing false = .ok (o, none) ∧ o.parameter = r.parameter ∧ o.sensors = r.sensors ∧ r.covariance = some o.covariance ∧
      o.cost = r.cost ∧ o.dof = r.dof ∧ o.pValue = r.pValue ∧ o.attrs = r.attrs := by
  obtain ⟨f, e1, e2, -, e4⟩ := saved_alone ho h hl
  obtain ⟨o, o1, o2, o3, o4, o5, o6, o7, o8, -⟩ := C39_output_roundtrip hn hv ha e1
  refine ⟨o, ?_, o2, o3, o4, o5, o6, o7, o8⟩
  unfold openResult
  simp only [e2, bind, Except.bind, e4, o1]
  rfl

/-- **C64 is false of the code.** A result saved without residuals (as `save_pc` does, HarmonisationEIV.py L99-100) cannot be opened the way `pc_input` is opened
(with residuals, the default): the loop over the missing list of residual files is a `TypeError`. -/
theorem C64_no_residuals_fails [Zero α] {fill : α} {dir' : Dir α} {fname : List Char} (ho : OutputName fname) {r : HarmResult α}
    (hn : ∀ s ∈ r.sensors, NoEdgeBlanks s) (hv : ∀ v ∈ r.vars, ∀ s ∈ v.2.nameList, NoEdgeBlanks s) (ha : PlainAttrs r.attrs)
    (h : r.save fill [] fname false = .ok dir') {listing : List (List Char)} (hl : listing.Perm dir'.names) :
    openResult dir' listing true = .error .typeError := by
  obtain ⟨f, e1, e2, e3, e4⟩ := saved_alone ho h hl
  obtain ⟨o, o1, -⟩ := C39_output_roundtrip hn hv ha e1
  unfold openResult
  simp only [e2, bind, Except.bind, e4, o1, e3]
  rfl

/-- **C64 is false of the code.** The preconditioner result has no cost, degrees of freedom or p-value (pc_algo.py L183-186): it cannot be saved at all. -/
theorem C64_preconditioner_save_fails [Zero α] {fill : α} {dir dir' : Dir α} {fname : List Char} {b : Bool} {r : HarmResult α} (hc : r.cost = .missing) :
    r.save fill dir fname b ≠ .ok dir' := by
  intro h
  obtain ⟨f, hf, -⟩ := save_ok h
  exact C39_incomplete_fails (.inl hc) f hf

/-- **C39 is false of the code when residuals are opened too**: the additional attributes of the result are replaced by those of the first residual file. -/
theorem C39_attributes_replaced [Zero α] {d : Dir α} {listing : List (List Char)} {o : OpenedOutput α} {q : OpenedResiduals α}
    (h : openResult d listing true = .ok (o, some q)) : o.attrs.map (·.1) = ["sensor_1_name", "sensor_2_name"] := by
  unfold openResult at h
  obtain ⟨n, -, h⟩ := bind_ok.1 h
  obtain ⟨f, -, h⟩ := bind_ok.1 h
  obtain ⟨o', -, h⟩ := bind_ok.1 h
  simp only [if_true] at h
  split at h
  · cases h
  · obtain ⟨fs, -, h⟩ := bind_ok.1 h
    obtain ⟨r, hr, h⟩ := bind_ok.1 h
    rw [pure_ok] at h
    cases h
    unfold openResiduals at hr
    obtain ⟨f0, -, hr⟩ := bind_ok.1 hr
    obtain ⟨x, -, hr⟩ := bind_ok.1 hr
    obtain ⟨v, -, hr⟩ := bind_ok.1 hr
    obtain ⟨m, -, hr⟩ := bind_ok.1 hr
    obtain ⟨k, -, hr⟩ := bind_ok.1 hr
    rw [pure_ok] at hr
    subst hr
    rfl

/-! ### A concrete case -/

/-- Three series between a reference and two sensors, with `X` and K residuals. -/
def Fixture.resIdx0 : Idx :=
  { Nm := [2, 1, 2], cNm := [0, 2, 3, 5], Im := [(0, 1), (1, 2), (0, 2)], sensors := ["R", "A", "B"], sensor_ms := [1, 1, 2]
    n_sensor := [0, 1, 1, 2, 0, 2, 2, 2], n_mu := [1, 1, 2, 2, 3, 3, 2, 3], n_cov := [1, 1, 1, 1, 1, 1, 2, 2], N_var := [2, 2, 1, 1, 2, 2, 1, 2]
    idx := [0, 2, 4, 5, 6, 8, 10, 11, 13] }

def Fixture.result0 : HarmResult ℚ :=
  { parameter := [1 / 2, 3], sensors := ["A", "B"], covariance := some [[2, 1], [1, 2]], cost := .num 7, dof := .num 3, pValue := .num (1 / 3)
    attrs := [("comment", .str "test"), ("job_id", .num 4)], vars := [("gain", .num 's' [1, 2, 3]), ("gain_sensors", .names 's' ["A", "B", "A"])]
    idx := Fixture.resIdx0, values := none, ks := some [10, 20, 30, 40, 50] }

def Fixture.resultName : List Char := "harm_FO_1_job.nc".toList

/-- The hypotheses of the theorems about saving and opening hold of a concrete result; listed in reverse order, the directory gives the K residuals in the order of
the files listed. -/
theorem result_case : ∃ dir' o q, Fixture.result0.save (-1) [] Fixture.resultName true = .ok dir' ∧ dir'.names.length = 4 ∧
    openResult dir' dir'.names.reverse true = .ok (o, some q) ∧ q.ks = [40, 50, 30, 10, 20] ∧ q.idx.pairNames = [("R", "B"), ("A", "B"), ("R", "A")] ∧
    o.parameter = [1 / 2, 3] := by
  have h : (match Fixture.result0.save (-1) [] Fixture.resultName true with
    | .ok d => match openResult d d.names.reverse true with
      | .ok (o, some q) => decide (d.names.length = 4 ∧ q.ks = [40, 50, 30, 10, 20] ∧ q.idx.pairNames = [("R", "B"), ("A", "B"), ("R", "A")] ∧ o.parameter = [1 / 2, 3])
      | _ => false
    | .error _ => false) = true := by decide +kernel
  split at h
  · rename_i d hd
    split at h
    · rename_i o q hq
      have := of_decide_eq_true h
      exact ⟨d, o, q, hd, this.1, hq, this.2.1, this.2.2.1, this.2.2.2⟩
    · cases h
  · cases h

theorem result_case_hyps : OutputName Fixture.resultName ∧ (∀ s ∈ Fixture.result0.sensors, NoEdgeBlanks s) ∧
    (∀ v ∈ Fixture.result0.vars, ∀ s ∈ v.2.nameList, NoEdgeBlanks s) ∧ PlainAttrs Fixture.result0.attrs ∧
    (∀ s ∈ Fixture.result0.idx.sensors, '_' ∉ s.toList ∧ '\n' ∉ s.toList) ∧ Fixture.result0.idx.sensors.Nodup ∧ Fixture.result0.idx.pairNames.Nodup ∧
    (∀ p ∈ Fixture.result0.idx.pairNames, p.1 ≠ p.2) ∧ Fixture.result0.idx.Im ≠ [] ∧ Fixture.result0.idx.cNm = prefixSums Fixture.result0.idx.Nm := by
  have nbA : NoEdgeBlanks "A" := by
    have e : "A".toList = ['A'] := by decide +kernel
    unfold NoEdgeBlanks; rw [e]
    exact ⟨fun c h => by cases h; decide, fun c h => by cases h; decide⟩
  have nbB : NoEdgeBlanks "B" := by
    have e : "B".toList = ['B'] := by decide +kernel
    unfold NoEdgeBlanks; rw [e]
    exact ⟨fun c h => by cases h; decide, fun c h => by cases h; decide⟩
  refine ⟨⟨"_FO_1_job".toList, by decide +kernel, by decide +kernel, by decide +kernel⟩, ?_, ?_, ?_, by decide +kernel, by decide +kernel, by decide +kernel, by decide +kernel, by decide +kernel, by decide +kernel⟩
  · have nb : ∀ s ∈ ["A", "B"], NoEdgeBlanks s := by
      intro s hs
      simp only [List.mem_cons, List.not_mem_nil, or_false] at hs
      rcases hs with rfl | rfl
      · exact nbA
      · exact nbB
    exact nb
  · have nb : ∀ s ∈ ["A", "B", "A"], NoEdgeBlanks s := by
      intro s hs
      simp only [List.mem_cons, List.not_mem_nil, or_false] at hs
      rcases hs with rfl | rfl | rfl
      · exact nbA
      · exact nbB
      · exact nbA
    intro v hv s hs
    simp only [Fixture.result0, List.mem_cons, List.not_mem_nil, or_false] at hv
    rcases hv with rfl | rfl
    · cases hs
    · exact nb s hs
  · exact ⟨by decide +kernel, by decide +kernel⟩

/-- With `X` residuals the same result can be opened only if the first file listed begins with the reference: in reverse order the sensors are right, and the `X`
residuals are all fill values; if the file of `A` and `B` is listed first the result opens as well, since `A` has one covariate. -/
theorem result_case_values : ∃ dir' o q, ({ Fixture.result0 with values := some [1, 2, 3, 4, 5, 6, 7, 8, 9, 10, 11, 12, 13] } : HarmResult ℚ).save (-1) [] Fixture.resultName true = .ok dir' ∧
    openResult dir' dir'.names.reverse true = .ok (o, some q) ∧ q.values = some [-1, -1, -1, -1, -1, -1, -1, -1, -1, -1, -1, -1, -1] := by
  have h : (match ({ Fixture.result0 with values := some [1, 2, 3, 4, 5, 6, 7, 8, 9, 10, 11, 12, 13] } : HarmResult ℚ).save (-1) [] Fixture.resultName true with
    | .ok d => match openResult d d.names.reverse true with
      | .ok (o, some q) => decide (q.values = some [-1, -1, -1, -1, -1, -1, -1, -1, -1, -1, -1, -1, -1])
      | _ => false
    | .error _ => false) = true := by decide +kernel
  split at h
  · rename_i d hd
    split at h
    · rename_i o q hq
      exact ⟨d, o, q, hd, hq, of_decide_eq_true h⟩
    · cases h
  · cases h

end Verif
