import Verif.Lemmas.ResultDir
import Batteries.Data.List.Perm
/-
Property C41: the output file and the residual files are told apart by their names. Property C42: every series has its own residual file.
-/
set_option autoImplicit false
namespace Verif
variable {α : Type}

/-- **C41, no confusion.** No name is taken for an output file and for a residual file. -/
theorem C41_exclusive (f : List Char) : ¬ (outRule f = true ∧ resRule f = true) := by
  rintro ⟨h1, h2⟩
  simp only [outRule, resRule, Bool.and_eq_true, Bool.not_eq_true', decide_eq_true_eq, decide_eq_false_iff_not] at h1 h2
  exact h1.1.2 h2.1.2

theorem resName_rules {fname : List Char} (ho : OutputName fname) {s1 s2 : String} (h1 : '\n' ∉ s1.toList) (h2 : '\n' ∉ s2.toList) :
    resRule (resName fname s1 s2) = true ∧ outRule (resName fname s1 s2) = false ∧ resName fname s1 s2 ≠ fname := by
  obtain ⟨t, rfl, hn, hr⟩ := ho
  rw [resName_harm]
  have hn' : '\n' ∉ t ++ "_res_".toList ++ s1.toList ++ "_".toList ++ s2.toList := by simp [hn, h1, h2]
  have hi : "res".toList <:+: t ++ "_res_".toList ++ s1.toList ++ "_".toList ++ s2.toList := ⟨t ++ ['_'], '_' :: (s1.toList ++ "_".toList ++ s2.toList), by simp⟩
  refine ⟨(resRule_harm hn').2 hi, ?_, ?_⟩
  · rw [Bool.eq_false_iff]
    intro h
    exact (outRule_harm hn').1 h hi
  · intro h
    have := congrArg List.length h
    simp at this

theorem filter_singleton {l : List (List Char)} (hn : l.Nodup) {p : List Char → Bool} {a : List Char} (ha : a ∈ l) (hp : ∀ x ∈ l, p x = true ↔ x = a) : l.filter p = [a] := by
  induction l with
  | nil => cases ha
  | cons b l ih =>
    rw [List.nodup_cons] at hn
    by_cases hb : b = a
    · subst hb
      rw [List.filter_cons_of_pos ((hp b (by simp)).2 rfl), List.filter_eq_nil_iff.2]
      intro x hx h
      have := (hp x (by simp [hx])).1 h
      subst this; exact hn.1 hx
    · rw [List.filter_cons_of_neg (by rw [hp b (by simp)]; exact hb)]
      exact ih hn.2 (by simpa [Ne.symm hb] using ha) (fun x hx => hp x (by simp [hx]))

theorem save_ok [Zero α] {fill : α} {dir dir' : Dir α} {fname : List Char} {b : Bool} {r : HarmResult α} (h : r.save fill dir fname b = .ok dir') :
    ∃ f, r.writeOutput = .ok f ∧ (b = false → dir' = dir.put fname (.out f)) ∧
      (b = true → ∃ fs : List (ResFile α), fs.length = r.idx.Im.length ∧ dir' = putAll fname (dir.put fname (.out f)) fs ∧
        ∀ (i : Nat) (p : Nat × Nat), r.idx.Im[i]? = some p → ∃ f, fs[i]? = some f ∧ resFile fill r.idx r.values r.ks i p = .ok f) := by
  unfold HarmResult.save at h
  obtain ⟨f, h1, h⟩ := bind_ok.1 h
  refine ⟨f, h1, ?_, ?_⟩
  · rintro rfl; simp only [Bool.false_eq_true, if_false] at h; rw [pure_ok] at h; exact h.symm
  · rintro rfl; simp only [if_true] at h; exact writeResiduals_ok h

/-- **C41.** A result is saved under an ordinary name into a directory with no other harmonisation file. However the directory is listed, the output file found
is the one saved, and the residual files found are exactly those of the series. -/
theorem C41_found [Zero α] {fill : α} {dir dir' : Dir α} {fname : List Char} (ho : OutputName fname) {r : HarmResult α}
    (hother : ∀ n ∈ dir.names, outRule n = false ∧ resRule n = false) (hnd : dir.names.Nodup)
    (hnames : ∀ s ∈ r.idx.sensors, '\n' ∉ s.toList) (h : r.save fill dir fname true = .ok dir') {listing : List (List Char)} (hl : listing.Perm dir'.names) :
    findOutput listing = .ok fname ∧
      ∀ n, (∃ l, findResiduals listing = some l ∧ n ∈ l) ↔ ∃ p ∈ r.idx.pairNames, n = resName fname p.1 p.2 := by
  obtain ⟨f, -, -, h2⟩ := save_ok h
  obtain ⟨fs, g1, rfl, g3⟩ := h2 rfl
  have hp := written_pairs g1 g3
  have hpn : ∀ g ∈ fs, '\n' ∉ g.s1.name.toList ∧ '\n' ∉ g.s2.name.toList := by
    intro g hg
    obtain ⟨i, hi⟩ := List.getElem?_of_mem hg
    have hil : i < r.idx.Im.length := by rw [← g1]; exact (List.getElem?_eq_some_iff.1 hi).1
    obtain ⟨g', e1, e2⟩ := g3 i _ (List.getElem?_eq_getElem hil)
    rw [hi] at e1; cases e1
    obtain ⟨k1, k2, -⟩ := resFile_ok e2
    exact ⟨hnames _ (List.mem_of_getElem? k1), hnames _ (List.mem_of_getElem? k2)⟩
  have hmem : ∀ n, n ∈ listing ↔ n ∈ dir.names ∨ n = fname ∨ ∃ g ∈ fs, n = resName fname g.s1.name g.s2.name := by
    intro n
    rw [hl.mem_iff, putAll_names, put_names]
    split
    · rename_i hf
      constructor
      · rintro (h | h)
        · exact .inl h
        · exact .inr (.inr h)
      · rintro (h | rfl | h)
        · exact .inl h
        · exact .inl hf
        · exact .inr h
    · simp only [List.mem_append, List.mem_singleton, or_assoc]
  have hput : (dir.put fname (.out f)).names.Nodup := by
    rw [put_names]
    split
    · exact hnd
    · rename_i hf
      rw [List.nodup_append]
      exact ⟨hnd, by simp, fun a ha b hb => by simp only [List.mem_singleton] at hb; subst hb; rintro rfl; exact hf ha⟩
  have hlnd : listing.Nodup := hl.nodup_iff.2 (putAll_nodup _ _ _ hput)
  have hfo : outRule fname = true := by
    obtain ⟨t, rfl, hn, hr⟩ := ho
    exact (outRule_harm hn).2 hr
  have hfr : resRule fname = false := by
    rw [Bool.eq_false_iff]; intro hh; exact C41_exclusive _ ⟨hfo, hh⟩
  have e1 : listing.filter outRule = [fname] := by
    apply filter_singleton hlnd ((hmem _).2 (.inr (.inl rfl)))
    intro x hx
    rcases (hmem x).1 hx with hx | rfl | ⟨g, hg, rfl⟩
    · constructor
      · intro hh; rw [(hother x hx).1] at hh; cases hh
      · rintro rfl; exact hfo
    · simp [hfo]
    · obtain ⟨q1, q2, q3⟩ := resName_rules ho (hpn g hg).1 (hpn g hg).2
      simp [q2, q3]
  refine ⟨by unfold findOutput; rw [e1], ?_⟩
  intro n
  have hres : n ∈ listing.filter resRule ↔ ∃ p ∈ r.idx.pairNames, n = resName fname p.1 p.2 := by
    rw [List.mem_filter, hmem, ← hp]
    simp only [List.mem_map, exists_exists_and_eq_and]
    constructor
    · rintro ⟨hn | rfl | hn, hr⟩
      · rw [(hother n hn).2] at hr; cases hr
      · rw [hfr] at hr; cases hr
      · exact hn
    · rintro ⟨g, hg, rfl⟩
      exact ⟨.inr (.inr ⟨g, hg, rfl⟩), (resName_rules ho (hpn g hg).1 (hpn g hg).2).1⟩
  rw [← hres]
  unfold findResiduals
  cases e : listing.filter resRule with
  | nil => simp
  | cons a l => simp

/-- The file name of the command line tool is made of the software name, version, tag, job and data set (HarmonisationOp.py L136-138). If the letters `res`
occur in it (for instance in a data set called `hires`), the output file is taken for a residual file and the saved result is not found again. -/
theorem C41_res_in_name_fails [Zero α] {fill : α} {dir' : Dir α} {t : List Char} (hn : '\n' ∉ t) (hr : "res".toList <:+: t) {r : HarmResult α}
    (hnames : ∀ s ∈ r.idx.sensors, '\n' ∉ s.toList)
    {b : Bool} (h : r.save fill [] ("harm".toList ++ t ++ ".nc".toList) b = .ok dir') {listing : List (List Char)} (hl : listing.Perm dir'.names) (c : Bool) :
    openResult dir' listing c = .error .ioError := by
  have hno : ∀ n ∈ listing, outRule n = false := by
    intro n hn'
    rw [hl.mem_iff] at hn'
    obtain ⟨f, -, h1, h2⟩ := save_ok h
    have hself : outRule ("harm".toList ++ t ++ ".nc".toList) = false := by
      rw [Bool.eq_false_iff]; intro hh; exact (outRule_harm hn).1 hh hr
    have hput : n ∈ Dir.names (Dir.put ([] : Dir α) ("harm".toList ++ t ++ ".nc".toList) (.out f)) → outRule n = false := by
      intro hm
      rw [put_names] at hm
      simp only [Dir.names, List.map_nil, List.not_mem_nil, if_false, List.nil_append, List.mem_singleton] at hm
      rw [hm]; exact hself
    cases b with
    | false => rw [h1 rfl] at hn'; exact hput hn'
    | true =>
      obtain ⟨fs, g1, g2, g3⟩ := h2 rfl
      rw [g2, putAll_names] at hn'
      rcases hn' with hn' | ⟨g, hg, rfl⟩
      · exact hput hn'
      · obtain ⟨i, hi⟩ := List.getElem?_of_mem hg
        have hil : i < r.idx.Im.length := by rw [← g1]; exact (List.getElem?_eq_some_iff.1 hi).1
        obtain ⟨g', e1, e2⟩ := g3 i _ (List.getElem?_eq_getElem hil)
        rw [hi] at e1; cases e1
        obtain ⟨k1, k2, -⟩ := resFile_ok e2
        have h1 := hnames _ (List.mem_of_getElem? k1)
        have h2 := hnames _ (List.mem_of_getElem? k2)
        rw [resName_harm, Bool.eq_false_iff]
        intro hh
        refine (outRule_harm (by simp [hn, h1, h2])).1 hh ?_
        obtain ⟨a, b, e⟩ := hr
        exact ⟨a, b ++ ("_res_".toList ++ g.s1.name.toList ++ "_".toList ++ g.s2.name.toList), by rw [← e]; simp⟩
  unfold openResult findOutput
  rw [List.filter_eq_nil_iff.2 (fun a ha => by rw [hno a ha]; decide)]
  rfl

/-- The names of two pairs without underscores in the first sensor's name differ. -/
theorem append_underscore_inj {a b c d : List Char} (ha : '_' ∉ a) (hc : '_' ∉ c) (h : a ++ '_' :: b = c ++ '_' :: d) : a = c ∧ b = d := by
  induction a generalizing c with
  | nil =>
    cases c with
    | nil => simpa using h
    | cons x c => simp only [List.nil_append, List.cons_append, List.cons.injEq] at h; exact absurd (by rw [← h.1]; simp) hc
  | cons x a ih =>
    cases c with
    | nil => simp only [List.nil_append, List.cons_append, List.cons.injEq] at h; exact absurd (by simp [h.1]) ha
    | cons y c =>
      simp only [List.cons_append, List.cons.injEq] at h
      simp only [List.mem_cons, not_or] at ha hc
      obtain ⟨rfl, rfl⟩ := ih ha.2 hc.2 h.2
      exact ⟨by rw [h.1], rfl⟩

/-- **C42 (part).** If no two series have the same pair of sensors and the sensor names contain no underscore, the residual files have different names, and all of
them are in the directory after saving. -/
theorem C42_distinct_partial [Zero α] {fill : α} {dir' : Dir α} {fname : List Char} (ho : OutputName fname) {r : HarmResult α} (hp : r.idx.pairNames.Nodup)
    (hu : ∀ s ∈ r.idx.sensors, '_' ∉ s.toList ∧ '\n' ∉ s.toList) (h : r.save fill [] fname true = .ok dir') :
    (r.idx.pairNames.map fun p => resName fname p.1 p.2).Nodup ∧ dir'.names.length = r.idx.Im.length + 1 := by
  obtain ⟨f, -, -, h2⟩ := save_ok h
  obtain ⟨fs, g1, rfl, g3⟩ := h2 rfl
  have hpe := written_pairs g1 g3
  have hpn : ∀ p ∈ r.idx.pairNames, ('_' ∉ p.1.toList ∧ '\n' ∉ p.1.toList) ∧ ('_' ∉ p.2.toList ∧ '\n' ∉ p.2.toList) := by
    rw [← hpe]
    intro p hpm
    obtain ⟨g, hg, rfl⟩ := List.mem_map.1 hpm
    obtain ⟨i, hi⟩ := List.getElem?_of_mem hg
    have hil : i < r.idx.Im.length := by rw [← g1]; exact (List.getElem?_eq_some_iff.1 hi).1
    obtain ⟨g', e1, e2⟩ := g3 i _ (List.getElem?_eq_getElem hil)
    rw [hi] at e1; cases e1
    obtain ⟨k1, k2, -⟩ := resFile_ok e2
    exact ⟨hu _ (List.mem_of_getElem? k1), hu _ (List.mem_of_getElem? k2)⟩
  have hnd : (r.idx.pairNames.map fun p => resName fname p.1 p.2).Nodup := by
    refine (List.nodup_map_iff_inj_on hp).2 ?_
    intro p hpm q hqm he
    obtain ⟨t, rfl, -⟩ := ho
    rw [resName_harm, resName_harm] at he
    simp only [List.append_assoc, List.append_cancel_left_eq] at he
    have he : p.1.toList ++ '_' :: (p.2.toList ++ ".nc".toList) = q.1.toList ++ '_' :: (q.2.toList ++ ".nc".toList) := he
    obtain ⟨e1, e2⟩ := append_underscore_inj (hpn p hpm).1.1 (hpn q hqm).1.1 he
    have e3 := List.append_cancel_right e2
    exact Prod.ext (String.toList_inj.1 e1) (String.toList_inj.1 e3)
  refine ⟨hnd, ?_⟩
  have hfn : (fs.map fun f => resName fname f.s1.name f.s2.name) = r.idx.pairNames.map fun p => resName fname p.1 p.2 := by
    rw [← hpe, List.map_map]; rfl
  rw [← hfn] at hnd
  have hne : ∀ g ∈ fs, resName fname g.s1.name g.s2.name ≠ fname := by
    intro g hg
    have := hpn (g.s1.name, g.s2.name) (by rw [← hpe]; exact List.mem_map.2 ⟨g, hg, rfl⟩)
    exact (resName_rules ho this.1.2 this.2.2).2.2
  have hlen : ∀ (fs : List (ResFile α)) (d : Dir α), (fs.map fun f => resName fname f.s1.name f.s2.name).Nodup →
      (∀ g ∈ fs, resName fname g.s1.name g.s2.name ∉ d.names) → (putAll fname d fs).names.length = d.names.length + fs.length := by
    intro fs
    induction fs with
    | nil => intro d _ _; rfl
    | cons g fs ih =>
      intro d hn hd
      simp only [List.map_cons, List.nodup_cons] at hn
      simp only [putAll, List.foldl_cons]
      rw [← putAll, ih _ hn.2, put_names, if_neg (hd g (by simp))]
      · simp; omega
      · intro k hk
        rw [put_names, if_neg (hd g (by simp))]
        simp only [List.mem_append, List.mem_singleton, not_or]
        exact ⟨hd k (by simp [hk]), fun e => hn.1 (List.mem_map.2 ⟨k, hk, e⟩)⟩
  rw [hlen fs _ hnd, put_names]
  · simp [Dir.names, g1]; omega
  · intro g hg
    rw [put_names]
    simpa [Dir.names] using hne g hg

/-- **C42 is false of the code.** Two series with the same sensors share one file: the second overwrites the first, and fewer files than series are left. -/
theorem C42_same_pair_fails [Zero α] {fill : α} {dir' : Dir α} {fname : List Char} {r : HarmResult α} {i j : Nat} {p : String × String} (hij : i ≠ j)
    (hi : r.idx.pairNames[i]? = some p) (hj : r.idx.pairNames[j]? = some p) (h : r.save fill [] fname true = .ok dir') :
    dir'.names.length ≤ r.idx.Im.length := by
  obtain ⟨f, -, -, h2⟩ := save_ok h
  obtain ⟨fs, g1, rfl, g3⟩ := h2 rfl
  have hpe := written_pairs g1 g3
  have hnd := putAll_nodup fname (Dir.put [] fname (.out f)) fs (by rw [put_names]; simp [Dir.names])
  have hjl := (List.getElem?_eq_some_iff.1 hj).1
  have hsub : (putAll fname (Dir.put [] fname (.out f)) fs).names ⊆ fname :: ((r.idx.pairNames.eraseIdx j).map fun p => resName fname p.1 p.2) := by
    intro n hn
    rw [putAll_names, put_names] at hn
    simp only [Dir.names, List.map_nil, List.not_mem_nil, if_false, List.nil_append, List.mem_singleton] at hn
    rcases hn with rfl | ⟨g, hg, rfl⟩
    · simp
    · refine List.mem_cons_of_mem _ (List.mem_map.2 ⟨(g.s1.name, g.s2.name), ?_, rfl⟩)
      have : (g.s1.name, g.s2.name) ∈ r.idx.pairNames := by rw [← hpe]; exact List.mem_map.2 ⟨g, hg, rfl⟩
      rw [List.mem_eraseIdx_iff_getElem?]
      obtain ⟨k, hk⟩ := List.getElem?_of_mem this
      by_cases hkj : k = j
      · subst hkj
        rw [hj] at hk
        exact ⟨i, hij, hi.trans hk⟩
      · exact ⟨k, hkj, hk⟩
  have h1 := (List.subperm_of_subset hnd hsub).length_le
  have h4 : r.idx.pairNames.length = r.idx.Im.length := by simp [Idx.pairNames]
  simp only [List.length_cons, List.length_map, List.length_eraseIdx, if_pos hjl] at h1
  omega

/-- **C42 is false of the code** also for different pairs, when the names contain underscores. -/
theorem C42_underscore_fails (fname : List Char) : ("A_B", "C") ≠ (("A", "B_C") : String × String) ∧ resName fname "A_B" "C" = resName fname "A" "B_C" := by
  refine ⟨by decide, ?_⟩
  unfold resName
  simp

end Verif
