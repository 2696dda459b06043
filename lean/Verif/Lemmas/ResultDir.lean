import Verif.Spec.Result
import Verif.Lemmas.ReaderSeries
/-
Directories and file names.
-/
set_option autoImplicit false
namespace Verif
variable {α : Type}

theorem put_names (d : Dir α) (n : List Char) (f : NcFile α) : (d.put n f).names = if n ∈ d.names then d.names else d.names ++ [n] := by
  unfold Dir.put Dir.names
  have e : d.any (fun e => e.1 == n) = decide (n ∈ d.map (·.1)) := by
    rw [Bool.eq_iff_iff]; simp only [List.any_eq_true, beq_iff_eq, decide_eq_true_eq, List.mem_map]
  rw [e]
  by_cases h : n ∈ d.map (·.1)
  · simp only [h, decide_true, if_true, List.map_map]
    apply List.map_congr_left
    intro x _
    by_cases hx : x.1 = n <;> simp [hx]
  · simp only [h, decide_false, if_false, List.map_append]
    simp

theorem put_lookup (d : Dir α) (n m : List Char) (f : NcFile α) : List.lookup m (d.put n f) = if m = n then some f else List.lookup m d := by
  unfold Dir.put
  split
  · rename_i h
    induction d with
    | nil => simp at h
    | cons a d ih =>
      simp only [List.map_cons, List.lookup]
      by_cases ha : a.1 = n
      · simp only [ha, beq_self_eq_true, if_true]
        by_cases hm : m = n
        · simp [hm]
        · simp only [if_neg hm]
          have h1 : (m == n) = false := by simpa using hm
          rw [h1]
          by_cases hd : d.any (fun e => e.1 == n) = true
          · have := ih hd; rw [if_neg hm] at this; exact this
          · have : d.map (fun e => if (e.1 == n) = true then (n, f) else e) = d := by
              conv_rhs => rw [← List.map_id d]
              apply List.map_congr_left
              intro x hx
              have : ¬ x.1 == n := by
                intro hh; exact hd (List.any_eq_true.2 ⟨x, hx, hh⟩)
              simp [this]
            rw [this]
      · have h2 : (a.1 == n) = false := by simpa using ha
        simp only [h2, Bool.false_eq_true, if_false]
        have hd : d.any (fun e => e.1 == n) = true := by
          simpa [List.any_cons, h2] using h
        have := ih hd
        by_cases hma : m = a.1
        · have : (m == a.1) = true := by simpa using hma
          rw [this]
          have hmn : m ≠ n := by rw [hma]; exact ha
          rw [if_neg hmn]
        · have : (m == a.1) = false := by simpa using hma
          rw [this]; exact ih hd
  · rename_i h
    induction d with
    | nil =>
      by_cases hm : m = n
      · simp [hm, List.lookup]
      · have : (m == n) = false := by simpa using hm
        simp [List.lookup, this, hm]
    | cons a d ih =>
      simp only [List.any_cons, Bool.or_eq_true, not_or] at h
      simp only [List.cons_append, List.lookup]
      by_cases hma : m = a.1
      · have e : (m == a.1) = true := by simpa using hma
        rw [e]
        have : m ≠ n := by rw [hma]; simpa using h.1
        rw [if_neg this]
      · have e : (m == a.1) = false := by simpa using hma
        rw [e]; exact ih h.2

/-- The directory after the residual files have been written. -/
def putAll (fname : List Char) (d : Dir α) (fs : List (ResFile α)) : Dir α :=
  fs.foldl (fun d f => d.put (resName fname f.s1.name f.s2.name) (.res f)) d

theorem putAll_names (fname : List Char) (d : Dir α) (fs : List (ResFile α)) (n : List Char) :
    n ∈ (putAll fname d fs).names ↔ n ∈ d.names ∨ ∃ f ∈ fs, n = resName fname f.s1.name f.s2.name := by
  induction fs generalizing d with
  | nil => simp [putAll]
  | cons f fs ih =>
    simp only [putAll, List.foldl_cons]
    rw [← putAll, ih, put_names]
    simp only [List.mem_cons, exists_eq_or_imp]
    split
    · rename_i h
      constructor
      · rintro (h | h)
        · exact .inl h
        · exact .inr (.inr h)
      · rintro (h' | rfl | h')
        · exact .inl h'
        · exact .inl h
        · exact .inr h'
    · simp only [List.mem_append, List.mem_singleton, or_assoc]

theorem putAll_nodup (fname : List Char) (d : Dir α) (fs : List (ResFile α)) (h : d.names.Nodup) : (putAll fname d fs).names.Nodup := by
  induction fs generalizing d with
  | nil => exact h
  | cons f fs ih =>
    simp only [putAll, List.foldl_cons]
    rw [← putAll]
    apply ih
    rw [put_names]
    split
    · exact h
    · rename_i hn
      rw [List.nodup_append]
      exact ⟨h, by simp, fun a ha b hb => by
        simp only [List.mem_singleton] at hb; subst hb; rintro rfl; exact hn ha⟩

theorem putAll_length (fname : List Char) (d : Dir α) (fs : List (ResFile α)) : (putAll fname d fs).names.length ≤ d.names.length + fs.length := by
  induction fs generalizing d with
  | nil => simp [putAll]
  | cons f fs ih =>
    simp only [putAll, List.foldl_cons]
    rw [← putAll]
    refine (ih _).trans ?_
    rw [put_names]
    split <;> simp <;> omega

theorem putAll_lookup_other (fname : List Char) (d : Dir α) (fs : List (ResFile α)) {n : List Char} (h : ∀ f ∈ fs, n ≠ resName fname f.s1.name f.s2.name) :
    List.lookup n (putAll fname d fs) = List.lookup n d := by
  induction fs generalizing d with
  | nil => rfl
  | cons f fs ih =>
    simp only [putAll, List.foldl_cons]
    rw [← putAll, ih _ (fun g hg => h g (by simp [hg])), put_lookup, if_neg (h f (by simp))]

theorem putAll_lookup (fname : List Char) (d : Dir α) (fs : List (ResFile α)) (hn : (fs.map fun f => resName fname f.s1.name f.s2.name).Nodup)
    {f : ResFile α} (hf : f ∈ fs) : List.lookup (resName fname f.s1.name f.s2.name) (putAll fname d fs) = some (.res f) := by
  induction fs generalizing d with
  | nil => cases hf
  | cons g fs ih =>
    simp only [List.map_cons, List.nodup_cons] at hn
    simp only [putAll, List.foldl_cons]
    rw [← putAll]
    rcases List.mem_cons.1 hf with rfl | hf'
    · rw [putAll_lookup_other _ _ _ (fun g hg e => hn.1 (List.mem_map.2 ⟨g, hg, e.symm⟩)), put_lookup, if_pos rfl]
    · exact ih _ hn.2 hf'

/-- The files written are those of the series, in order, put into the directory one after the other. -/
theorem writeResiduals_ok [Zero α] {fill : α} {fname : List Char} {x : Idx} {v k : Option (List α)} {d d' : Dir α}
    (h : writeResiduals fill d fname x v k = .ok d') :
    ∃ fs : List (ResFile α), fs.length = x.Im.length ∧ d' = putAll fname d fs ∧
      ∀ (i : Nat) (p : Nat × Nat), x.Im[i]? = some p → ∃ f, fs[i]? = some f ∧ resFile fill x v k i p = .ok f := by
  have key : ∀ (l : List (Nat × Nat)) (n : Nat) (d : Dir α), (l.zipIdx n).foldlM (fun d pi => do
      let f ← resFile fill x v k pi.2 pi.1
      pure (d.put (resName fname f.s1.name f.s2.name) (.res f))) d = (.ok d' : Py (Dir α)) →
      ∃ fs : List (ResFile α), fs.length = l.length ∧ d' = putAll fname d fs ∧
      ∀ (i : Nat) (p : Nat × Nat), l[i]? = some p → ∃ f, fs[i]? = some f ∧ resFile fill x v k (n + i) p = .ok f := by
    intro l
    induction l with
    | nil => intro n d h; simp only [List.zipIdx_nil, List.foldlM_nil] at h; cases h; exact ⟨[], rfl, rfl, by simp⟩
    | cons p l ih =>
      intro n d h
      rw [List.zipIdx_cons, List.foldlM_cons] at h
      obtain ⟨d1, h1, h2⟩ := bind_ok.1 h
      obtain ⟨f, h3, h4⟩ := bind_ok.1 h1
      rw [pure_ok] at h4
      subst h4
      obtain ⟨fs, g1, g2, g3⟩ := ih (n + 1) _ h2
      refine ⟨f :: fs, by simp [g1], by rw [g2]; rfl, ?_⟩
      intro i q hq
      cases i with
      | zero => simp at hq; subst hq; exact ⟨f, rfl, h3⟩
      | succ i =>
        simp at hq
        obtain ⟨f', e1, e2⟩ := g3 i q hq
        exact ⟨f', by simpa using e1, by rw [show n + (i + 1) = n + 1 + i by omega]; exact e2⟩
  have := key x.Im 0 d h
  simpa using this

theorem pyGet_inv {l : List α} {i : Nat} {a : α} (h : pyGet l i = .ok a) : l[i]? = some a := by
  unfold pyGet at h
  cases e : l[i]? with
  | none => rw [e] at h; cases h
  | some b => rw [e] at h; cases h; rfl

theorem resSide_name [Zero α] {fill : α} {x : Idx} {v : Option (List α)} {i s M : Nat} {name : String} {r : ResSide α}
    (h : resSide fill x v i s M name = .ok r) : r.name = name := by
  unfold resSide at h
  split at h
  · cases h; rfl
  · obtain ⟨m, -, h⟩ := bind_ok.1 h
    obtain ⟨c, -, h⟩ := bind_ok.1 h
    rw [pure_ok] at h; subst h; rfl

theorem resFile_ok [Zero α] {fill : α} {x : Idx} {v k : Option (List α)} {i : Nat} {p : Nat × Nat} {f : ResFile α} (h : resFile fill x v k i p = .ok f) :
    x.sensors[p.1]? = some f.s1.name ∧ x.sensors[p.2]? = some f.s2.name ∧ x.Nm[i]? = some f.M ∧
      resSide fill x v i p.1 f.M f.s1.name = .ok f.s1 ∧ resSide fill x v i p.2 f.M f.s2.name = .ok f.s2 ∧
      ∃ a b ks, x.cNm[i]? = some a ∧ x.cNm[i + 1]? = some b ∧ k = some ks ∧ setSlice (List.replicate f.M 0) 0 f.M (slice ks a b) = .ok f.k := by
  unfold resFile at h
  obtain ⟨n1, h1, h⟩ := bind_ok.1 h
  obtain ⟨n2, h2, h⟩ := bind_ok.1 h
  obtain ⟨M, h3, h⟩ := bind_ok.1 h
  obtain ⟨s1, h4, h⟩ := bind_ok.1 h
  obtain ⟨s2, h5, h⟩ := bind_ok.1 h
  obtain ⟨a, h6, h⟩ := bind_ok.1 h
  obtain ⟨b, h7, h⟩ := bind_ok.1 h
  cases k with
  | none => cases h
  | some ks =>
    obtain ⟨k', h8, h⟩ := bind_ok.1 h
    rw [pure_ok] at h
    subst h
    have e1 := resSide_name h4
    have e2 := resSide_name h5
    subst e1; subst e2
    exact ⟨pyGet_inv h1, pyGet_inv h2, pyGet_inv h3, h4, h5, a, b, ks, pyGet_inv h6, pyGet_inv h7, rfl, h8⟩

/-- The names of the files are made of the names of the pairs. -/
theorem written_pairs [Zero α] {fill : α} {x : Idx} {v k : Option (List α)} {fs : List (ResFile α)} (hl : fs.length = x.Im.length)
    (h : ∀ (i : Nat) (p : Nat × Nat), x.Im[i]? = some p → ∃ f, fs[i]? = some f ∧ resFile fill x v k i p = .ok f) :
    fs.map (fun f => (f.s1.name, f.s2.name)) = x.pairNames := by
  apply List.ext_getElem?
  intro i
  unfold Idx.pairNames
  rw [List.getElem?_map, List.getElem?_map]
  cases e : x.Im[i]? with
  | none =>
    rw [List.getElem?_eq_none_iff] at e
    rw [List.getElem?_eq_none (by omega)]; rfl
  | some p =>
    obtain ⟨f, h1, h2⟩ := h i p e
    obtain ⟨g1, g2, -⟩ := resFile_ok h2
    rw [h1]
    simp [List.getD, g1, g2]

/-! ### names -/

theorem splitext_nc (t : List Char) : splitext ("harm".toList ++ t ++ ".nc".toList) = ("harm".toList ++ t, ".nc".toList) := by
  unfold splitext
  have e : List.takeWhile (fun c => decide (c ≠ '.')) ("harm".toList ++ t ++ ".nc".toList).reverse = ['c', 'n'] := by
    rw [List.reverse_append]; rfl
  have hl : ("harm".toList ++ t ++ ".nc".toList).length = ("harm".toList ++ t).length + 3 := by
    rw [List.length_append]; rfl
  simp only [e, List.reverse_cons, List.reverse_nil, List.nil_append, List.length_append]
  have e3 : List.take ("harm".toList.length + t.length + ".nc".toList.length - (['n'].length + ['c'].length) - 1) ("harm".toList ++ t ++ ".nc".toList) = "harm".toList ++ t := by
    apply List.take_left'
    rw [List.length_append]; rfl
  rw [e3, if_pos]
  · rfl
  · refine ⟨?_, ?_⟩
    · simp
    · exact List.any_eq_true.2 ⟨'h', by simp, by decide⟩

theorem firstLine_eq {s : List Char} (h : '\n' ∉ s) : firstLine s = s := by
  unfold firstLine
  induction s with
  | nil => rfl
  | cons a s ih =>
    simp only [List.mem_cons, not_or] at h
    rw [List.takeWhile_cons_of_pos (by simpa using fun e => h.1 e.symm), ih h.2]

theorem infix_res_nc {t : List Char} : "res".toList <:+: t ++ ".nc".toList ↔ "res".toList <:+: t := by
  constructor
  · rintro ⟨a, b, h⟩
    have hr : b.reverse ++ ("res".toList.reverse ++ a.reverse) = ".nc".toList.reverse ++ t.reverse := by
      have := congrArg List.reverse h
      simpa [List.reverse_append] using this
    have e1 : "res".toList.reverse = ['s', 'e', 'r'] := rfl
    have e2 : ".nc".toList.reverse = ['c', 'n', '.'] := rfl
    rw [e1, e2] at hr
    match hb : b.reverse, hr with
    | [], hr => simp at hr
    | [x], hr => simp at hr
    | [x, y], hr => simp at hr
    | x :: y :: z :: w, hr =>
      simp only [List.cons_append, List.nil_append, List.cons.injEq] at hr
      obtain ⟨_, _, _, hr⟩ := hr
      refine ⟨a, w.reverse, ?_⟩
      have := congrArg List.reverse hr
      simp only [List.reverse_append, List.reverse_cons, List.reverse_reverse, List.append_assoc] at this
      rw [← this]; simp
  · rintro ⟨a, b, h⟩
    exact ⟨a, b ++ ".nc".toList, by rw [← h]; simp⟩

theorem outRule_harm {t : List Char} (hn : '\n' ∉ t) : outRule ("harm".toList ++ t ++ ".nc".toList) = true ↔ ¬ ("res".toList <:+: t) := by
  have e1 : ("harm".toList ++ t ++ ".nc".toList).drop 4 = t ++ ".nc".toList := rfl
  have e2 : firstLine (t ++ ".nc".toList) = t ++ ".nc".toList := firstLine_eq (by simp [hn])
  have e3 : "harm".toList.isPrefixOf ("harm".toList ++ t ++ ".nc".toList) = true := by rw [List.isPrefixOf_iff_prefix, List.append_assoc]; exact List.prefix_append _ _
  unfold outRule
  rw [e1, e2, e3]
  simp only [Bool.true_and, Bool.and_eq_true, Bool.not_eq_true', decide_eq_true_eq, decide_eq_false_iff_not, infix_res_nc, List.suffix_append t _ |>.isInfix, and_true]

theorem resRule_harm {t : List Char} (hn : '\n' ∉ t) : resRule ("harm".toList ++ t ++ ".nc".toList) = true ↔ "res".toList <:+: t := by
  have e1 : ("harm".toList ++ t ++ ".nc".toList).drop 4 = t ++ ".nc".toList := rfl
  have e2 : firstLine (t ++ ".nc".toList) = t ++ ".nc".toList := firstLine_eq (by simp [hn])
  have e3 : "harm".toList.isPrefixOf ("harm".toList ++ t ++ ".nc".toList) = true := by rw [List.isPrefixOf_iff_prefix, List.append_assoc]; exact List.prefix_append _ _
  unfold resRule
  rw [e1, e2, e3]
  simp only [Bool.true_and, Bool.and_eq_true, decide_eq_true_eq, infix_res_nc, List.suffix_append t _ |>.isInfix, and_true]

theorem resName_harm (t : List Char) (s1 s2 : String) :
    resName ("harm".toList ++ t ++ ".nc".toList) s1 s2 = "harm".toList ++ (t ++ "_res_".toList ++ s1.toList ++ "_".toList ++ s2.toList) ++ ".nc".toList := by
  unfold resName
  rw [splitext_nc]
  simp only [List.append_assoc]

end Verif
